import Verif.Lemmas.ProbActSimRun
import Verif.Lemmas.ActSimGet

/-! # Creation, runs and getters of `ProbabiliticActivityAppliancesSimulator` -/

namespace Demod

namespace ProbActSim

theorem households_parse (n : Nat) (hn : 0 < n) (groups : Option (List Subgroup)) (ns : Option (List Nat)) (gs : List Subgroup) (counts : List Nat) (h : HouseholdsAre n groups ns gs counts) :
    ∃ t, parseHouseholds n groups ns = .ok (gs, t) ∧ t.length = n ∧ (∀ (h k : Nat), t[h]? = some k ↔ InSubgroup counts h k) ∧ ∀ k ∈ t, k < gs.length := by
  rcases h with ⟨rfl, rfl, rfl, rfl⟩ | ⟨rfl, rfl, hsum, hlen⟩
  · refine ⟨List.replicate n 0, rfl, by simp, ?_, ?_⟩
    · intro h k
      unfold InSubgroup
      rw [List.getElem?_replicate]
      cases k with
      | zero => simp
      | succ k =>
        simp only [List.take_succ_cons, List.take_nil, List.sum_cons, List.sum_nil, Nat.add_zero]
        constructor
        · intro c
          split at c
          · cases c
          · cases c
        · intro c
          omega
    · intro k hk
      rw [List.eq_of_mem_replicate hk]
      decide
  · have hns : counts ≠ [] := by rintro rfl; simp at hsum; omega
    obtain ⟨t, ht, htl, hin⟩ := (C84_subgroups n gs counts).1 ⟨hsum, hns⟩
    refine ⟨t, ht, htl, hin, ?_⟩
    intro k hk
    obtain ⟨h, hh⟩ := List.mem_iff_getElem?.1 hk
    obtain ⟨q1, q2⟩ := (hin h k).1 hh
    by_contra hcon
    rw [List.take_of_length_le (by omega)] at q1 q2
    omega

theorem prob_kept_eq (flags : Bool) (acts : Activities) (apps : List AppData) :
    (apps.filter fun x => decide (x.info.activity ∈ acts.map (·.1) ++ alwaysOn) && (!flags || x.info.probabilistic)) = probApps flags acts apps := by
  unfold probApps
  refine List.filter_congr fun x _ => ?_
  rw [Bool.eq_iff_iff, decide_eq_true_eq]
  have hon : x.info.AlwaysOn ↔ x.info.activity ∈ alwaysOn := by
    unfold AppInfo.AlwaysOn alwaysOn
    simp
  rw [Bool.and_eq_true, decide_eq_true_eq, List.mem_append, hon]
  cases flags <;> simp

theorem switchOnRows_spec (data : Subgroup → ActStats) (step : Rat) (apps : List AppInfo) (groups : List Subgroup) (t : List Nat) (hr : ∀ g ∈ groups, ∀ l, g.at kNResidents ≠ some (.list l))
    (hst : ∀ g ∈ groups, ∀ p ∈ (data g).probs, ∃ s ∈ (data g).starts, s.1 = p.1) :
    ∃ rows, switchOnRows data step apps groups t = .ok rows ∧ ∀ (h k : Nat) g, t[h]? = some k → groups[k]? = some g → ProbsOf data step apps g fun a => (rows.getD h []).getD a 0 := by
  obtain ⟨rows, erows, hl, hrel⟩ := mapM_rel (groupRow data step apps) (fun g row => ProbsOf data step apps g fun a => row.getD a 0) groups (by
    intro g hg
    obtain ⟨residents, er, h1, h2⟩ : ∃ residents : Option Rat, (match lookupA g kNResidents with
        | none => Except.ok none
        | some (SubVal.int n) => .ok (some (n : Rat))
        | some (SubVal.list _) => .error PyErr.typeError) = .ok residents ∧ (∀ k : Int, g.at kNResidents = some (SubVal.int k) → residents = some (k : Rat)) ∧ (g.at kNResidents = none → residents = none) := by
      cases hv : lookupA g kNResidents with
      | none => exact ⟨none, rfl, fun k c => by (cases hv.symm.trans c), fun _ => rfl⟩
      | some v =>
        cases v with
        | int n => exact ⟨some n, rfl, fun k c => by (cases hv.symm.trans c; rfl), fun c => by (cases hv.symm.trans c)⟩
        | list l => exact absurd hv (hr g hg l)
    obtain ⟨out, eout⟩ := (C86_succeeds step residents (data g).targets (data g).probs (data g).starts apps).2 (hst g hg)
    obtain ⟨targets, et, htl, hget⟩ := switchOnProbs_get step residents _ _ _ apps out eout
    refine ⟨probRow targets out, ?_, residents, targets, out, h1, h2, et, eout, ?_⟩
    · unfold groupRow
      simp only [bind, Except.bind]
      cases hv : lookupA g kNResidents with
      | none =>
        rw [hv] at er
        obtain rfl := Except.ok.inj er
        simp only [et, eout]
      | some v =>
        cases v with
        | int k =>
          rw [hv] at er
          obtain rfl := Except.ok.inj er
          simp only [et, eout]
        | list l => exact absurd hv (hr g hg l)
    · intro a x hx
      have ha : a < targets.length := by rw [htl]; exact (List.getElem?_eq_some_iff.1 hx).1
      have eta := List.getElem?_eq_getElem ha
      have ho := hget a x _ hx eta
      refine ⟨_, eta, ?_⟩
      obtain ⟨o, eo⟩ : ∃ o, out[a]? = some o := ⟨_, ho⟩
      clear ho
      have e : (probRow targets out).getD a 0 = o.getD (if targets[a] > 0 then 1 else 0) := by
        unfold probRow
        rw [List.getD_eq_getElem?_getD, List.getElem?_map, zip_get (z := (targets[a], o)) eta eo]
        rfl
      beta_reduce
      rw [e, eo]
      cases o with
      | none => exact Or.inr ⟨rfl, rfl⟩
      | some p => exact Or.inl ⟨p, rfl, rfl⟩)
  refine ⟨t.map fun k => rows.getD k (apps.map fun _ => 0), ?_, ?_⟩
  · unfold switchOnRows
    simp only [bind, Except.bind, erows]
  · intro h k g hk hg
    have hkl : k < rows.length := by rw [hl]; exact (List.getElem?_eq_some_iff.1 hg).1
    obtain ⟨row, erow, hrow⟩ := hrel k g hg
    rw [List.getElem?_eq_getElem hkl] at erow
    obtain rfl := Option.some.inj erow
    have e : (t.map fun k => rows.getD k (apps.map fun _ => 0)).getD h [] = rows[k] := by
      rw [List.getD_eq_getElem?_getD, List.getElem?_map, hk, Option.map_some, Option.getD_some, List.getD_eq_getElem?_getD, List.getElem?_eq_getElem hkl, Option.getD_some]
    rw [e]
    exact hrow

theorem prob_create_spec (apps : List AppData) (flags : Bool) (switchedOn full : ProfilesDict (List Rat)) (data : Subgroup → ActStats) (step : Rat) (n : Nat) (groups : Option (List Subgroup)) (ns : Option (List Nat))
    (gs : List Subgroup) (counts : List Nat) (acts : Activities) (args : ActSim.ActArgs) (hh : HouseholdsAre n groups ns gs counts) (hs : ProbSetup (probApps flags acts apps) switchedOn full data n gs acts args) :
    ∃ s0 t, create apps flags true switchedOn full data step n groups ns acts args = .ok s0 ∧ s0.apps = probApps flags acts apps ∧ t.length = n ∧ (∀ (h k : Nat), t[h]? = some k ↔ InSubgroup counts h k) ∧
      sampleAvailable ((probApps flags acts apps).map (·.info)) gs t args.uOwned args.equip = .ok s0.owned ∧
      chooseProfiles ((probApps flags acts apps).map (·.info)) (fun h a => (s0.owned.getD h []).getD a false) switchedOn full args.draw args.draw' args.real = .ok s0.choice ∧
      (∀ (h k : Nat) g, t[h]? = some k → gs[k]? = some g → ProbsOf data step ((probApps flags acts apps).map (·.info)) g fun a => s0.prob (h, a)) ∧
      s0.Shaped ∧ s0.owned.length = n ∧ s0.prev = acts ∧ ((∀ x ∈ probApps flags acts apps, ¬ x.info.AlwaysOn) → s0.Fresh) ∧ ∀ h a x, h < n → s0.apps[a]? = some x → ¬ x.info.AlwaysOn → s0.lft h a = 0 := by
  obtain ⟨t, ht, htl, hin, hkl⟩ := households_parse n hs.inhabited groups ns gs counts hh
  have hn := hs.inhabited
  obtain ⟨kept, hkept⟩ : ∃ kept, kept = probApps flags acts apps := ⟨_, rfl⟩
  rw [← hkept] at hs ⊢
  obtain ⟨owned, howned, hrect⟩ := sampleAvailable_ok (kept.map (·.info)) gs t args.uOwned args.equip hkl hs.usable
  rw [List.length_map] at hrect
  have hreal : args.real ≠ .unknown := by
    rcases hs.profiles with h | ⟨h, -⟩ <;> rw [h] <;> exact fun c => by cases c
  obtain ⟨choice, hchoice⟩ := chooseProfiles_ok kept (fun h a => (owned.getD h []).getD a false) switchedOn full args.draw args.draw' args.real hreal hs.notEmpty
  have hol : owned.length = n := by rw [hrect.1, htl]
  obtain ⟨left, eleft, rleft, hleft⟩ := ActSim.initialLeft_spec kept choice args.start owned (by
    intro h a x _ hx hon c
    obtain ⟨c1, c2⟩ := choice_rows kept owned choice switchedOn full args hs.profiles hchoice h a x hx
    by_cases h1 : (applOf owned choice h a x).owned = true
    · by_cases h2 : (applOf owned choice h a x).varLoad = true
      · have := (c1 h1 h2).2.2 hon
        change 2 ≤ choice.duration h a at this
        omega
      · have := c2 (Or.inr (by simpa using h2))
        omega
    · have := c2 (Or.inl (by simpa using h1))
      omega)
  obtain ⟨probs, eprobs, hprobs⟩ := switchOnRows_spec data step (kept.map (·.info)) gs t hs.residents hs.starts
  have hrect' : Rect owned.length kept.length owned := ⟨rfl, hrect.2⟩
  obtain ⟨s0, es0⟩ : ∃ s0 : ProbActSim, s0 = { apps := kept, owned := owned, choice := choice, probs := probs, left := left, prev := acts, cache := some (owned.map fun r => r.map fun _ => false) } := ⟨_, rfl⟩
  have hsh : s0.Shaped := by rw [es0]; exact ⟨hrect', rleft⟩
  have hz : ∀ h a x, h < n → s0.apps[a]? = some x → ¬ x.info.AlwaysOn → s0.lft h a = 0 := by
    intro h a x hh hx hon
    rw [es0] at hx
    have := (hleft h a x (by omega) hx).1 hon
    rw [es0]
    exact ent_getD this
  refine ⟨s0, t, ?_, by rw [es0], htl, hin, by rw [es0]; exact howned, by rw [es0]; exact hchoice, by rw [es0]; exact hprobs, hsh, by rw [es0]; exact hol, by rw [es0], ?_, hz⟩
  · unfold create
    simp only [bind, Except.bind, ht]
    rw [if_neg (by omega), prob_kept_eq, ← hkept, howned]
    simp only [hchoice, eprobs, eleft, Bool.not_true, Bool.false_and, Bool.false_eq_true, if_false]
    rw [es0]
  · intro hall
    right
    have hc : s0.cache = some (owned.map fun r => r.map fun _ => false) := by rw [es0]
    have ho : s0.owned = owned := by rw [es0]
    have ha : s0.apps = kept := by rw [es0]
    rw [hc]
    congr 1
    have hu := usageNow_rect s0 hsh
    rw [ho, ha] at hu
    refine ent_ext (rect_map hrect' _) hu ?_
    intro h hh a hak
    have hx : s0.apps[a]? = some kept[a] := by rw [ha]; exact List.getElem?_eq_getElem hak
    rw [usageNow_ent s0 hsh h a _ (by rw [ho]; exact hh) hx, hz h a _ (by omega) hx (hall _ (List.getElem_mem hak)), ent_map]
    obtain ⟨o, eo⟩ := hrect'.ent hh hak
    rw [eo]
    simp

/-- The activities of the last step. -/
def lastActs (acts : Activities) (hist : List (Bool × Activities × ProbDraws)) : Activities := ((hist.map fun i => i.2.1).getLast?).getD acts

/-- The uses after a history of steps. -/
def useAfter : ProbActSim → (Nat → Nat → Use) → List (Bool × Activities × ProbDraws) → Nat → Nat → Use
  | _, u, [] => u
  | s, u, i :: is => match step (if i.1 then s.observe else s) i.2.1 i.2.2 with
    | .ok s' => useAfter s' (fun h a => useNext (u h a) (s'.lft h a)) is
    | .error _ => u

theorem run_append (i : Bool × Activities × ProbDraws) (s1 s2 : ProbActSim) : ∀ (hist : List (Bool × Activities × ProbDraws)) (s : ProbActSim) (u : Nat → Nat → Use), run s hist = .ok s1 → step (if i.1 then s1.observe else s1) i.2.1 i.2.2 = .ok s2 →
    run s (hist ++ [i]) = .ok s2 ∧ useAfter s u (hist ++ [i]) = fun h a => useNext (useAfter s u hist h a) (s2.lft h a) := by
  intro hist
  induction hist with
  | nil =>
    intro s u h1 h2
    obtain rfl := Except.ok.inj h1
    constructor
    · simp only [List.nil_append, run, bind, Except.bind, h2]
    · simp only [List.nil_append, useAfter, h2]
  | cons j hist ih =>
    intro s u h1 h2
    simp only [run, bind, Except.bind] at h1
    cases hj : step (if j.1 then s.observe else s) j.2.1 j.2.2 with
    | error err => rw [hj] at h1; cases h1
    | ok s' =>
      rw [hj] at h1
      obtain ⟨k1, k2⟩ := ih s' (fun h a => useNext (u h a) (s'.lft h a)) h1 h2
      constructor
      · rw [List.cons_append]
        simp only [run, bind, Except.bind, hj]
        exact k1
      · rw [List.cons_append]
        simp only [useAfter, hj]
        exact k2

/-- What holds after each step. -/
structure RunInv (s0 : ProbActSim) (names : List Str) (last : Activities) (u : Nat → Nat → Use) (s : ProbActSim) : Prop where
  shaped : s.Shaped
  apps : s.apps = s0.apps
  owned : s.owned = s0.owned
  choice : s.choice = s0.choice
  probs : s.probs = s0.probs
  prev : s.prev = last
  acts : ActivitiesOk s0.owned.length names last
  fresh : s.Fresh
  cache : s.cache = none ∨ ∀ h a x, h < s0.owned.length → s0.apps[a]? = some x → u h a = none
  uses : ∀ h a x, h < s0.owned.length → s0.apps[a]? = some x → UseOk (s.lft h a) (u h a)
  lasts : ∀ h a x k d, h < s0.owned.length → s0.apps[a]? = some x → u h a = some (k, d) → UseLasts (s0.appl h a x) d

theorem _root_.Demod.UseStep.fromNone {A : Appl} {o o' : Bool} {off may must : Prop} {u u' : Use} (h : UseStep A o off may must u u') (hu : u = none) : UseStep A o' off may must u u' := by
  have hend : ¬ u.Ends := by
    rintro ⟨k, d, e, -⟩
    rw [hu] at e
    cases e
  exact ⟨h.goesOn, h.goesOff, fun c => absurd c hend, fun _ => h.begins (Or.inl hu), fun _ => h.must (Or.inl hu), h.again⟩

theorem _root_.Demod.UseStep.lasts {A : Appl} {o : Bool} {off may must : Prop} {u u' : Use} (h : UseStep A o off may must u u') (hl : ∀ k d, u = some (k, d) → UseLasts A d) (k : Nat) (d : Rat) (e : u' = some (k, d)) : UseLasts A d := by
  have hno : A.owned = true ∨ A.owned = false := by cases A.owned <;> simp
  have hnew : u' = none ∨ (may ∧ ∃ d, 0 < d ∧ UseLasts A d ∧ u' = some (0, d)) → UseLasts A d := by
    rintro (c | ⟨-, d', -, c1, c2⟩)
    · rw [c] at e
      cases e
    · rw [c2] at e
      obtain ⟨rfl, rfl⟩ := Prod.mk.inj (Option.some.inj e)
      exact c1
  cases hu : u with
  | none => exact hnew (h.begins (Or.inl hu))
  | some q =>
    obtain ⟨k0, d0⟩ := q
    by_cases hk : (k0 + 1 : Rat) < d0
    · rcases hno with ho | ho
      · by_cases hoff : A.switchOff = true ∧ off
        · rw [h.goesOff k0 d0 hu hk (Or.inl ho) hoff.1 hoff.2] at e
          cases e
        · rw [h.goesOn k0 d0 hu hk (Or.inl ho) hoff] at e
          obtain ⟨-, rfl⟩ := Prod.mk.inj (Option.some.inj e)
          exact hl k0 d0 hu
      · rcases h.again k0 d0 hu hk ho with c | c | c
        · rw [c] at e
          cases e
        · rw [c] at e
          obtain ⟨-, rfl⟩ := Prod.mk.inj (Option.some.inj e)
          exact hl k0 d0 hu
        · exact hnew (Or.inr c)
    · have hend : u.Ends := ⟨k0, d0, hu, not_lt.1 hk⟩
      rcases hno with ho | ho
      · cases o
        · exact hnew (h.begins (Or.inr ⟨hend, Or.inl rfl⟩))
        · rw [h.rests hend ho rfl] at e
          cases e
      · exact hnew (h.begins (Or.inr ⟨hend, Or.inr ho⟩))

theorem run_step (s0 : ProbActSim) (names : List Str) (hcov : ∀ y ∈ s0.apps, y.info.activity ∈ names) (f : Nat) (T : Str) (hfl : f < s0.apps.length) (hof : OnlyFollower (s0.apps.map (·.info)) f T)
    (hrow : ∀ h a x, s0.apps[a]? = some x → (s0.appl h a x).owned = true → (s0.appl h a x).varLoad = true → 0 < (s0.appl h a x).loadDuration)
    (last : Activities) (u : Nat → Nat → Use) (s : ProbActSim) (hi : RunInv s0 names last u s) (i : Bool × Activities × ProbDraws) (ha : ActivitiesOk s0.owned.length names i.2.1) (hd : ProbDrawsOk i.2.2) :
    ∃ s', step (if i.1 then s.observe else s) i.2.1 i.2.2 = .ok s' ∧ RunInv s0 names i.2.1 (fun h a => useNext (u h a) (s'.lft h a)) s' ∧
      ∀ h a x, h < s0.owned.length → s0.apps[a]? = some x → UseStep (s0.appl h a x) i.1 (ActStops last i.2.1 x.info.activity h)
        (MayStart s0.apps (u h) last i.2.1 i.2.2 h x (s0.prob (h, a)) ((actList s0.apps ((i.2.1.lookup x.info.activity).getD []) x.info.activity).idxOf (h, a)))
        (MustStart s0.apps (u h) last i.2.1 i.2.2 h x (s0.prob (h, a)) ((actList s0.apps ((i.2.1.lookup x.info.activity).getD []) x.info.activity).idxOf (h, a))) (u h a) (useNext (u h a) (s'.lft h a)) := by
  obtain ⟨s1, es1⟩ : ∃ s1 : ProbActSim, s1 = if i.1 then s.observe else s := ⟨_, rfl⟩
  rw [← es1]
  have b1 : s1.apps = s0.apps := by rw [es1]; split <;> exact hi.apps
  have b2 : s1.owned = s0.owned := by rw [es1]; split <;> exact hi.owned
  have b3 : s1.choice = s0.choice := by rw [es1]; split <;> exact hi.choice
  have b4 : s1.probs = s0.probs := by rw [es1]; split <;> exact hi.probs
  have b5 : s1.prev = last := by rw [es1]; split <;> exact hi.prev
  have b6 : s1.Shaped := by rw [es1]; split <;> exact ⟨hi.shaped.owned, hi.shaped.left⟩
  have b7 : ∀ h a, s1.lft h a = s.lft h a := by intro h a; rw [es1]; split <;> rfl
  have b8 : s1.Fresh := by
    rw [es1]
    split
    · right
      change some s.usage = some s.usageNow
      rw [hi.fresh.usage]
    · exact hi.fresh
  have bA : ∀ h a x, s1.appl h a x = s0.appl h a x := by intro h a x; unfold appl; rw [b2, b3]
  have bP : ∀ q, s1.prob q = s0.prob q := by intro q; unfold prob; rw [b4]
  obtain ⟨s', e', g1, g2, g3, g4, g5, g6, g7, g8⟩ := prob_step_spec s1 b6 b8 i.2.2 hd i.2.1 f T (by rw [b1]; exact hfl) (by rw [b1]; exact hof) (by
    rw [b1, b2, b5]
    rintro q hq ⟨x, hx, hxq⟩
    have hm := hi.acts.covers _ (hcov x hx)
    rw [hxq] at hm
    obtain ⟨r, hr, er⟩ := List.mem_map.1 hm
    refine ⟨r.2, lookup_of_mem last hi.acts.nodup _ _ (by rw [← er]; exact hr), hi.acts.length r hr, ha.length q hq⟩)
  have hstep : ∀ h a x, h < s0.owned.length → s0.apps[a]? = some x → UseStep (s0.appl h a x) i.1 (ActStops last i.2.1 x.info.activity h)
        (MayStart s0.apps (u h) last i.2.1 i.2.2 h x (s0.prob (h, a)) ((actList s0.apps ((i.2.1.lookup x.info.activity).getD []) x.info.activity).idxOf (h, a)))
        (MustStart s0.apps (u h) last i.2.1 i.2.2 h x (s0.prob (h, a)) ((actList s0.apps ((i.2.1.lookup x.info.activity).getD []) x.info.activity).idxOf (h, a))) (u h a) (useNext (u h a) (s'.lft h a)) := by
    intro h a x hh hx
    obtain ⟨l1, byType, he⟩ := g8 h a x (by rw [b2]; exact hh) (by rw [b1]; exact hx)
    have := use_step s1 i.2.2 hd i.2.1 ha.nodup (u h) h a x (by rw [b1]; exact hx) (by
      rw [b1]
      intro y hy
      exact ha.covers _ (hcov y hy)) l1 (s'.lft h a) byType he (by
      rw [b1]
      intro b y hy
      rw [b7]
      exact hi.uses h b y hh hy) (by
      rw [bA]
      exact hrow h a x hx)
    rw [bA, b1, b5, bP] at this
    rcases hi.cache with c | c
    · have e : s1.cache.isSome = i.1 := by
        rw [es1]
        cases i.1
        · simp [c]
        · rfl
      rw [e] at this
      exact this
    · exact this.fromNone (c h a x hh hx)
  refine ⟨s', e', ⟨g1, g2.trans b1, g3.trans b2, g4.trans b3, g5.trans b4, g6, ha, Or.inl g7, Or.inl g7, ?_, ?_⟩, hstep⟩
  · intro h a x _ _
    exact useNext_ok _ _
  · intro h a x k d hh hx e
    exact (hstep h a x hh hx).lasts (fun k d => hi.lasts h a x k d hh hx) k d e

theorem prob_run_spec (s0 : ProbActSim) (acts : Activities) (names : List Str) (hcov : ∀ y ∈ s0.apps, y.info.activity ∈ names) (f : Nat) (T : Str) (hfl : f < s0.apps.length) (hof : OnlyFollower (s0.apps.map (·.info)) f T)
    (hrow : ∀ h a x, s0.apps[a]? = some x → (s0.appl h a x).owned = true → (s0.appl h a x).varLoad = true → 0 < (s0.appl h a x).loadDuration)
    (h0 : RunInv s0 names acts (fun _ _ => none) s0) (hist : List (Bool × Activities × ProbDraws)) (hh : ∀ i ∈ hist, ActivitiesOk s0.owned.length names i.2.1 ∧ ProbDrawsOk i.2.2) :
    ∃ s, run s0 hist = .ok s ∧ RunInv s0 names (lastActs acts hist) (useAfter s0 (fun _ _ => none) hist) s := by
  induction hist using List.reverseRecOn with
  | nil => exact ⟨s0, rfl, h0⟩
  | append_singleton hist i ih =>
    obtain ⟨s, es, hs⟩ := ih fun j hj => hh j (List.mem_append_left _ hj)
    obtain ⟨ha, hd⟩ := hh i (List.mem_append_right _ List.mem_cons_self)
    obtain ⟨s', e', hs', -⟩ := run_step s0 names hcov f T hfl hof hrow _ _ s hs i ha hd
    obtain ⟨k1, k2⟩ := run_append i s s' hist s0 (fun _ _ => none) es e'
    refine ⟨s', k1, ?_⟩
    rw [k2]
    have : lastActs acts (hist ++ [i]) = i.2.1 := by
      unfold lastActs
      simp
    rw [this]
    exact hs'

/-- The power of an entry. -/
theorem use_power (A : Appl) (l : Rat) (u : Use) (hu : UseOk l u) (hl : ∀ k d, u = some (k, d) → UseLasts A d) (hrow : A.owned = true → A.varLoad = true → 0 < A.loadDuration ∧ A.loadDuration ≤ A.row.length) :
    ∃ w, A.power (decide (l > 0) && A.owned) ⟨l, 0⟩ = .ok w ∧ UseConsumes A u w := by
  cases ho : A.owned with
  | false =>
    rw [Bool.and_false]
    refine ⟨_, power_off A _, ⟨fun _ => by rw [ho]; rfl, fun c => by rw [ho] at c; (cases c), fun _ _ c => by rw [ho] at c; (cases c), fun _ _ c => by rw [ho] at c; (cases c)⟩⟩
  | true =>
    rw [Bool.and_true]
    rcases hu with ⟨rfl, h0⟩ | ⟨k, d, rfl, h1, h2⟩
    · rw [decide_eq_false (not_lt.2 h0)]
      refine ⟨_, power_off A _, ⟨fun c => by rw [ho] at c; (cases c), fun _ _ => by rw [ho]; rfl, fun _ _ _ c => by (cases c), fun _ _ _ c => by (cases c)⟩⟩
    · rw [decide_eq_true h2]
      cases hv : A.varLoad with
      | false => exact ⟨_, power_const A _ hv, ⟨fun c => by rw [ho] at c; (cases c), fun _ c => by (cases c), fun _ _ _ _ _ => rfl, fun _ _ _ _ c => by rw [hv] at c; (cases c)⟩⟩
      | true =>
        obtain ⟨r1, r2⟩ := hrow ho hv
        have hd := (hl k d rfl).1 r1
        have hk : k < A.loadDuration := by
          have : (k : Rat) < A.loadDuration := by rw [← hd]; linarith
          exact_mod_cast this
        obtain ⟨w, e, hw⟩ := power_at A ⟨l, 0⟩ hv k hk r2 (by rw [← hd]; exact h1)
        refine ⟨w, e, ⟨fun c => by rw [ho] at c; (cases c), fun _ c => by (cases c), fun _ _ _ _ c => by rw [hv] at c; (cases c), ?_⟩⟩
        intro k' d' _ c _
        obtain ⟨rfl, rfl⟩ := Prod.mk.inj (Option.some.inj c)
        exact ⟨hk, hw⟩

end ProbActSim

end Demod
