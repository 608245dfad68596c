import Verif.Lemmas.ActSimRun
import Verif.Lemmas.Follow
import Verif.Spec.ProbActSim

/-! # Steps of `ProbabiliticActivityAppliancesSimulator`, entry by entry -/

namespace Demod

theorem setEntries_some {α : Type} {n k : Nat} (at' : List (Nat × Nat)) (vs : List α) {m : List (List α)} (hm : Rect n k m) (hl : vs.length = at'.length) (h a : Nat) (hh : h < n) (ha : a < k) (hq : (h, a) ∈ at') :
    ∃ (i : Nat) (v : α), at'[i]? = some (h, a) ∧ vs[i]? = some v ∧ ent (setEntries m at' vs) h a = some v := by
  induction at' generalizing vs m with
  | nil => cases hq
  | cons q qs ih =>
    cases vs with
    | nil => simp at hl
    | cons v vs =>
      have e : setEntries m (q :: qs) (v :: vs) = setEntries (setEntry m q v) qs vs := rfl
      rw [e]
      have hm' := rect_setEntry hm q v
      by_cases hqs : (h, a) ∈ qs
      · obtain ⟨i, w, h1, h2, h3⟩ := ih vs hm' (by simpa using hl) hqs
        exact ⟨i + 1, w, by simpa using h1, by simpa using h2, h3⟩
      · have hq' : q = (h, a) := by
          rcases List.mem_cons.1 hq with c | c
          · exact c.symm
          · exact absurd c hqs
        refine ⟨0, v, by simp [hq'], rfl, ?_⟩
        rw [setEntries_miss qs vs hm' h a hh ha hqs, ent_setEntry hm q v h a hh ha, if_pos hq']

theorem durationsOf_spec (apps : List AppData) (choice : ProfileChoice) (v : Nat → Nat) (at' : List (Nat × Nat)) (hat : ∀ q ∈ at', q.2 < apps.length) :
    ∃ ds : List Rat, durationsOf apps choice v at' = .ok ds ∧ ds.length = at'.length ∧
      ∀ (i : Nat) (q : Nat × Nat) x d, at'[i]? = some q → apps[q.2]? = some x → ds[i]? = some d →
        (0 < choice.duration q.1 q.2 → d = choice.duration q.1 q.2) ∧ (choice.duration q.1 q.2 = 0 → x.usesWater = true → ∃ w : Nat, d = w / x.flow) ∧
          (choice.duration q.1 q.2 = 0 → x.usesWater = false → d = x.info.meanDuration) := by
  obtain ⟨xs, e, hl, h⟩ : ∃ xs : List AppData, (at'.mapM fun q => pyGet apps q.2) = .ok xs ∧ xs.length = at'.length ∧ ∀ (i : Nat) (q : Nat × Nat), at'[i]? = some q → xs[i]? = apps[q.2]? := by
    clear v
    induction at' with
    | nil => exact ⟨[], rfl, rfl, by simp⟩
    | cons q qs ih =>
      obtain ⟨xs, e, hl, h⟩ := ih fun r hr => hat r (List.mem_cons_of_mem _ hr)
      obtain ⟨x, hx⟩ : ∃ x, apps[q.2]? = some x := ⟨_, List.getElem?_eq_getElem (hat q List.mem_cons_self)⟩
      refine ⟨x :: xs, ?_, by simp [hl], ?_⟩
      · have : pyGet apps q.2 = .ok x := by unfold pyGet; rw [hx]
        simp only [List.mapM_cons, bind, Except.bind, this, e, pure, Except.pure]
      · intro i r hi
        cases i with
        | zero => simp only [List.getElem?_cons_zero, Option.some.injEq] at hi ⊢; rw [← hi, hx]
        | succ i => simpa using h i r (by simpa using hi)
  refine ⟨_, by unfold durationsOf; simp only [bind, Except.bind, e]; rfl, by simp [scatter_length, hl], ?_⟩
  intro i q x d hi hx hd
  have hxi := (h i q hi).trans hx
  obtain ⟨d0, hd0, hd0'⟩ : ∃ d0, (scatter (xs.map fun x => x.usesWater) (xs.map fun x => x.info.meanDuration)
      ((gather (xs.map fun x => x.usesWater) (xs.map fun x => x.flow)).zipIdx.map fun q => (v q.2 : Rat) / q.1))[i]? = some d0 ∧
        ((x.usesWater = true → ∃ w : Nat, d0 = w / x.flow) ∧ (x.usesWater = false → d0 = x.info.meanDuration)) := by
    cases hw : x.usesWater
    · refine ⟨x.info.meanDuration, ?_, by simp, fun _ => rfl⟩
      rw [scatter_false _ _ _ i (by rw [List.getElem?_map, hxi, Option.map_some, hw]), List.getElem?_map, hxi, Option.map_some]
    · have hm : (xs.map fun (x : AppData) => x.usesWater)[i]? = some true := by rw [List.getElem?_map, hxi, Option.map_some, hw]
      refine ⟨_, ?_, fun _ => ⟨v (((xs.map fun (x : AppData) => x.usesWater).take i).count true), rfl⟩, by simp⟩
      rw [scatter_true _ _ _ i hm (by simp) (by rw [List.length_map, List.length_zipIdx, gather_length _ _ (by simp)]), List.getElem?_map, List.getElem?_zipIdx, gather_get _ _ i hm (by simp), List.getElem?_map, hxi]
      simp
  rw [List.getElem?_map, zip_get (z := (d0, choice.duration q.1 q.2)) hd0 (by rw [List.getElem?_map, hi]; rfl), Option.map_some, Option.some.injEq] at hd
  subst hd
  refine ⟨fun hp => by simp [hp], fun h0 hw => ?_, fun h0 hw => ?_⟩
  · obtain ⟨w, hw⟩ := hd0'.1 hw
    exact ⟨w, by simpa [h0] using hw⟩
  · simpa [h0] using hd0'.2 hw

theorem mem_chosen (u : Nat → Rat) (p : Nat × Nat → Rat) (at' : List (Nat × Nat)) (q : Nat × Nat) : q ∈ ProbActSim.chosen u p at' ↔ ∃ j, at'[j]? = some q ∧ u j < p q := by
  unfold ProbActSim.chosen
  rw [List.mem_map]
  constructor
  · rintro ⟨⟨q', j⟩, hm, rfl⟩
    rw [List.mem_filter, decide_eq_true_eq, List.mem_zipIdx_iff_getElem?] at hm
    exact ⟨j, hm.1, hm.2⟩
  · rintro ⟨j, h1, h2⟩
    exact ⟨(q, j), List.mem_filter.2 ⟨List.mem_zipIdx_iff_getElem?.2 h1, by simpa using h2⟩, rfl⟩

theorem mem_chosen_nodup (u : Nat → Rat) (p : Nat × Nat → Rat) (at' : List (Nat × Nat)) (hnd : at'.Nodup) (q : Nat × Nat) : q ∈ ProbActSim.chosen u p at' ↔ q ∈ at' ∧ u (at'.idxOf q) < p q := by
  rw [mem_chosen]
  constructor
  · rintro ⟨j, h1, h2⟩
    obtain ⟨hj, e⟩ := List.getElem?_eq_some_iff.1 h1
    have : at'.idxOf q = j := by rw [← e]; exact hnd.idxOf_getElem j hj
    exact ⟨List.mem_of_getElem? h1, by rw [this]; exact h2⟩
  · rintro ⟨h1, h2⟩
    exact ⟨_, List.getElem?_idxOf h1, h2⟩

namespace ProbActSim

/-- The arrays have a row per household and a column per appliance. -/
structure Shaped (s : ProbActSim) : Prop where
  owned : Rect s.owned.length s.apps.length s.owned
  left : Rect s.owned.length s.apps.length s.left

/-- Everything but the steps left is the same. -/
structure Same (s s' : ProbActSim) : Prop where
  apps : s'.apps = s.apps
  owned : s'.owned = s.owned
  choice : s'.choice = s.choice
  probs : s'.probs = s.probs
  prev : s'.prev = s.prev
  cache : s'.cache = s.cache

theorem Same.refl (s : ProbActSim) : Same s s := ⟨rfl, rfl, rfl, rfl, rfl, rfl⟩

theorem Same.trans {s t u : ProbActSim} (h : Same s t) (h' : Same t u) : Same s u :=
  ⟨h'.apps.trans h.apps, h'.owned.trans h.owned, h'.choice.trans h.choice, h'.probs.trans h.probs, h'.prev.trans h.prev, h'.cache.trans h.cache⟩

theorem Same.appl {s t : ProbActSim} (h : Same s t) (i a : Nat) (x : AppData) : t.appl i a x = s.appl i a x := by
  unfold ProbActSim.appl
  rw [h.owned, h.choice]

theorem Same.prob {s t : ProbActSim} (h : Same s t) (q : Nat × Nat) : t.prob q = s.prob q := by
  unfold ProbActSim.prob
  rw [h.probs]

/-- The steps left. -/
def lft (s : ProbActSim) (h a : Nat) : Rat := (s.left.getD h []).getD a 0

/-- The usage that the getter returns. -/
def used (s : ProbActSim) (h a : Nat) : Bool := (s.usage.getD h []).getD a false

theorem Same.used {s t : ProbActSim} (h : Same s t) (c : List (List Bool)) (hc : s.cache = some c) (i a : Nat) : t.used i a = s.used i a := by
  unfold ProbActSim.used usage
  rw [h.cache, hc, Option.getD_some, Option.getD_some]

/-- What `switch_on` sets. -/
def Lasts (A : Appl) (d : Rat) : Prop := (A.varLoad = true → d = A.loadDuration) ∧ (A.varLoad = false → UseLasts A d)

theorem switchOn_spec (s : ProbActSim) (hs : s.Shaped) (v : Nat → Nat) (at' : List (Nat × Nat)) (hlt : ∀ q ∈ at', q.1 < s.owned.length ∧ q.2 < s.apps.length) :
    ∃ s', s.switchOn v at' = .ok s' ∧ s'.Shaped ∧ Same s s' ∧ ∀ h a x, h < s.owned.length → s.apps[a]? = some x →
      ((h, a) ∉ at' → s'.lft h a = s.lft h a) ∧ ((h, a) ∈ at' → Lasts (s.appl h a x) (s'.lft h a)) := by
  obtain ⟨vs, evs⟩ : ∃ vs, vs = at'.filter fun q => s.choice.varLoad q.2 := ⟨_, rfl⟩
  obtain ⟨cs, ecs⟩ : ∃ cs, cs = at'.filter fun q => !s.choice.varLoad q.2 := ⟨_, rfl⟩
  obtain ⟨ds, eds, hdl, hds⟩ := durationsOf_spec s.apps s.choice v cs (by
    intro q hq
    rw [ecs] at hq
    exact (hlt q (List.mem_filter.1 hq).1).2)
  have hr := rect_setEntries vs (vs.map fun q => ((s.choice.duration q.1 q.2 : Nat) : Rat)) hs.left
  refine ⟨{ s with left := setEntries (setEntries s.left vs (vs.map fun q => ((s.choice.duration q.1 q.2 : Nat) : Rat))) cs ds }, ?_, ⟨hs.owned, rect_setEntries _ _ hr⟩, ⟨rfl, rfl, rfl, rfl, rfl, rfl⟩, ?_⟩
  · unfold switchOn
    rw [← evs, ← ecs]
    simp only [bind, Except.bind, eds]
  intro h a x hh hx
  have ha : a < s.apps.length := (List.getElem?_eq_some_iff.1 hx).1
  obtain ⟨l, el⟩ := hs.left.ent hh ha
  unfold lft
  simp only
  constructor
  · intro hm
    have h1 := setEntries_miss vs (vs.map fun q => ((s.choice.duration q.1 q.2 : Nat) : Rat)) hs.left h a hh ha (by rw [evs]; exact fun c => hm (List.mem_filter.1 c).1)
    have h2 := setEntries_miss cs ds hr h a hh ha (by rw [ecs]; exact fun c => hm (List.mem_filter.1 c).1)
    rw [ent_getD ((h2.trans h1).trans el), ent_getD el]
  · intro hm
    unfold Lasts
    change (s.choice.varLoad a = true → _) ∧ (s.choice.varLoad a = false → _)
    cases hv : s.choice.varLoad a
    · refine ⟨fun c => by (cases c), fun _ => ?_⟩
      obtain ⟨i, d, h1, h2, h3⟩ := setEntries_some cs ds hr hdl h a hh ha (by rw [ecs]; exact List.mem_filter.2 ⟨hm, by simp [hv]⟩)
      rw [ent_getD h3]
      exact hds i (h, a) x d h1 hx h2
    · refine ⟨fun _ => ?_, fun c => by (cases c)⟩
      obtain ⟨i, d, h1, h2, h3⟩ := setEntries_some vs (vs.map fun q => ((s.choice.duration q.1 q.2 : Nat) : Rat)) hs.left (by simp) h a hh ha (by rw [evs]; exact List.mem_filter.2 ⟨hm, hv⟩)
      have h4 := setEntries_miss cs ds hr h a hh ha (by rw [ecs]; intro c; have := (List.mem_filter.1 c).2; simp [hv] at this)
      rw [ent_getD (h4.trans h3)]
      rw [List.getElem?_map, h1, Option.map_some, Option.some.injEq] at h2
      rw [← h2]
      rfl

theorem switchOff_spec (s : ProbActSim) (hs : s.Shaped) (at' : List (Nat × Nat)) (hnd : at'.Nodup) :
    (s.switchOff at').Shaped ∧ Same s (s.switchOff at') ∧ ∀ h a x, h < s.owned.length → s.apps[a]? = some x → (s.switchOff at').lft h a = if (h, a) ∈ at' then 0 else s.lft h a := by
  refine ⟨⟨hs.owned, rect_setEntries _ _ hs.left⟩, ⟨rfl, rfl, rfl, rfl, rfl, rfl⟩, ?_⟩
  intro h a x hh hx
  have ha : a < s.apps.length := (List.getElem?_eq_some_iff.1 hx).1
  obtain ⟨l, el⟩ := hs.left.ent hh ha
  have e := ent_setEntries_map at' (fun _ => (0 : Rat)) hs.left hnd h a hh ha
  unfold lft switchOff
  simp only
  by_cases hm : (h, a) ∈ at'
  · rw [if_pos hm] at e ⊢
    rw [ent_getD e]
  · rw [if_neg hm] at e ⊢
    rw [ent_getD (e.trans el), ent_getD el]

/-- The households and appliances that may start at the end of an activity, in order. -/
def endList (apps : List AppData) (p n : List Nat) (act : Str) : List (Nat × Nat) :=
  ActSim.cross ((p.zip n).map fun q => decide (q.1 ≠ q.2) && decide (q.2 = 0)) (apps.map fun x => decide (x.info.previousActivity = some act))

/-- The households and appliances that may start with an activity, in order. -/
def actList (apps : List AppData) (n : List Nat) (act : Str) : List (Nat × Nat) := ActSim.cross (n.map fun k => decide (k > 0)) (apps.map fun x => decide (x.info.activity = act))

/-- An appliance follows something. -/
def dict (x : AppData) : Prop := x.info.previousType ≠ none ∨ x.info.previousActivity ≠ none

instance (x : AppData) : Decidable (dict x) := by unfold dict; infer_instance

theorem dictated_iff (s : ProbActSim) (a : Nat) (x : AppData) (hx : s.apps[a]? = some x) : s.followSim.dictated a = true ↔ dict x := by
  unfold ProbSim.dictated followSim dict
  simp only
  rw [List.getElem?_map, hx]
  simp only [Option.map_some, Option.bind_some, Bool.true_and, Bool.or_eq_true, Option.isSome_iff_ne_none]

/-- One activity of a step, for an entry of an appliance with probability `p`: `l` steps left become `l'`. -/
def Round (apps : List AppData) (prev : Activities) (d : ProbDraws) (h a : Nat) (x : AppData) (A : Appl) (used : Bool) (p : Rat) (act : Str) (n : List Nat) (l l' : Rat) : Prop :=
  let stops := 0 < prev.performing act h ∧ n.getD h 0 = 0
  let l1 := if x.info.activity = act ∧ x.switchOff = true ∧ stops then 0 else l
  let byEnd := x.info.previousActivity = some act ∧ stops ∧ d.uEnd act ((endList apps ((prev.lookup act).getD []) n act).idxOf (h, a)) < (if used then 0 else 1) * p
  let byAct := x.info.activity = act ∧ 0 < n.getD h 0 ∧ used = false ∧ ¬ dict x ∧ d.uAct act ((actList apps n act).idxOf (h, a)) < p
  (¬ byEnd → ¬ byAct → l' = l1) ∧ (byEnd ∨ byAct → Lasts A l')

theorem activity_spec (d : ProbDraws) (hd : ProbDrawsOk d) (s : ProbActSim) (hs : s.Shaped) (c : List (List Bool)) (hc : s.cache = some c) (act : Str) (nn : List Nat)
    (hp : (∃ x ∈ s.apps, x.info.activity = act) → ∃ p, s.prev.lookup act = some p ∧ p.length = s.owned.length ∧ nn.length = s.owned.length) :
    ∃ s', s.activity d act nn = .ok s' ∧ s'.Shaped ∧ Same s s' ∧ ∀ h a x, h < s.owned.length → s.apps[a]? = some x →
      ((∃ y ∈ s.apps, y.info.activity = act) → Round s.apps s.prev d h a x (s.appl h a x) (s.used h a) (s.prob (h, a)) act nn (s.lft h a) (s'.lft h a)) ∧ ((¬ ∃ y ∈ s.apps, y.info.activity = act) → s'.lft h a = s.lft h a) := by
  unfold activity
  simp only
  by_cases hany : ∃ x ∈ s.apps, x.info.activity = act
  swap
  · have hthese : (s.apps.map fun x => decide (x.info.activity = act)).any id = false := by
      rw [List.any_eq_false]
      intro b hb
      obtain ⟨x, hx, rfl⟩ := List.mem_map.1 hb
      have : ¬ x.info.activity = act := fun c => hany ⟨x, hx, c⟩
      simp [this]
    rw [hthese]
    exact ⟨s, rfl, hs, Same.refl s, fun h a x hh hx => ⟨fun c => absurd c hany, fun _ => rfl⟩⟩
  obtain ⟨p, hpl, hpn, hnn⟩ := hp hany
  have hthese : (s.apps.map fun x => decide (x.info.activity = act)).any id = true := by
    obtain ⟨x, hx, e⟩ := hany
    rw [List.any_eq_true]
    exact ⟨true, List.mem_map.2 ⟨x, hx, by simpa using e⟩, rfl⟩
  rw [hthese, hpl]
  simp only [Bool.not_true, Bool.false_eq_true, if_false]
  rw [if_neg (by rw [hpn, hnn]; simp)]
  have hperf : ∀ h, s.prev.performing act h = p.getD h 0 := by intro h; unfold Activities.performing; rw [hpl]; rfl
  have hzip : ∀ (f : Nat × Nat → Bool) (h : Nat), h < s.owned.length → ((p.zip nn).map f)[h]? = some (f (p.getD h 0, nn.getD h 0)) := by
    intro f h hh
    have h1 : p[h]? = some (p.getD h 0) := by rw [List.getD_eq_getElem?_getD, List.getElem?_eq_getElem (by omega)]; rfl
    have h2 : nn[h]? = some (nn.getD h 0) := by rw [List.getD_eq_getElem?_getD, List.getElem?_eq_getElem (by omega)]; rfl
    rw [List.getElem?_map, zip_get (z := (p.getD h 0, nn.getD h 0)) h1 h2]
    rfl
  obtain ⟨stops, est⟩ : ∃ stops, stops = (p.zip nn).map fun q => decide (q.1 ≠ q.2) && decide (q.2 = 0) := ⟨_, rfl⟩
  obtain ⟨off, eof⟩ : ∃ off, off = ((s.apps.map fun x => decide (x.info.activity = act)).zip s.apps).map fun q => q.1 && q.2.switchOff := ⟨_, rfl⟩
  have hst : ∀ h, h < s.owned.length → stops[h]? = some (decide (p.getD h 0 ≠ nn.getD h 0) && decide (nn.getD h 0 = 0)) := by intro h hh; rw [est]; exact hzip _ h hh
  have hstop : ∀ h, (decide (p.getD h 0 ≠ nn.getD h 0) && decide (nn.getD h 0 = 0)) = true ↔ (0 < p.getD h 0 ∧ nn.getD h 0 = 0) := by
    intro h
    rw [Bool.and_eq_true, decide_eq_true_eq, decide_eq_true_eq]
    omega
  have hslen : stops.length = s.owned.length := by rw [est]; simp [hpn, hnn]
  have hth : ∀ (a : Nat) x, s.apps[a]? = some x → (s.apps.map fun x => decide (x.info.activity = act))[a]? = some (decide (x.info.activity = act)) := by
    intro a x hx; rw [List.getElem?_map, hx]; rfl
  have hof : ∀ (a : Nat) x, s.apps[a]? = some x → off[a]? = some (decide (x.info.activity = act) && x.switchOff) := by
    intro a x hx
    rw [eof, List.getElem?_map, zip_get (z := (decide (x.info.activity = act), x)) (hth a x hx) hx]
    rfl
  rw [← est, ← eof]
  obtain ⟨s1, es1, g1, g2, g3⟩ : ∃ s1 : ProbActSim, s1 = (if stops.any id then s.switchOff (ActSim.cross stops off) else s) ∧ s1.Shaped ∧ Same s s1 ∧ ∀ (h a : Nat) (x : AppData), h < s.owned.length → s.apps[a]? = some x →
      s1.lft h a = if x.info.activity = act ∧ x.switchOff = true ∧ 0 < p.getD h 0 ∧ nn.getD h 0 = 0 then 0 else s.lft h a := by
    refine ⟨_, rfl, ?_⟩
    by_cases hs0 : stops.any id = true
    · rw [if_pos hs0]
      obtain ⟨k1, k2, k3⟩ := switchOff_spec s hs (ActSim.cross stops off) (trueAt_nodup _)
      refine ⟨k1, k2, ?_⟩
      intro h a x hh hx
      rw [k3 h a x hh hx]
      have := ent_cross stops off h a _ _ (hst h hh) (hof a x hx)
      rw [hstop, Bool.and_eq_true, decide_eq_true_eq] at this
      refine if_congr ?_ rfl rfl
      rw [this]
      exact ⟨fun ⟨c1, c2, c3⟩ => ⟨c2, c3, c1⟩, fun ⟨c1, c2, c3⟩ => ⟨c3, c1, c2⟩⟩
    · rw [if_neg hs0]
      refine ⟨hs, Same.refl s, ?_⟩
      intro h a x hh hx
      rw [if_neg]
      rintro ⟨-, -, c1, c2⟩
      apply hs0
      rw [List.any_eq_true]
      refine ⟨true, List.mem_of_getElem? ((hst h hh).trans ?_), rfl⟩
      rw [(hstop h).2 ⟨c1, c2⟩]
  rw [← es1]
  have hob : s1.observe = s1 := by
    unfold observe usage
    rw [g2.cache, hc, Option.getD_some, ← hc, ← g2.cache]
  rw [hob]
  have eend : ActSim.cross stops (s1.apps.map fun x => decide (x.info.previousActivity = some act)) = endList s.apps p nn act := by rw [g2.apps, est]; rfl
  rw [eend]
  have hlt1 : ∀ q ∈ endList s.apps p nn act, q.1 < s.owned.length ∧ q.2 < s.apps.length := by
    rintro ⟨h, a⟩ hq
    unfold endList at hq
    have := cross_lt _ _ _ _ hq
    rw [← est, hslen, List.length_map] at this
    exact this
  have hlt2 : ∀ q ∈ actList s.apps nn act, q.1 < s.owned.length ∧ q.2 < s.apps.length := by
    rintro ⟨h, a⟩ hq
    unfold actList at hq
    have := cross_lt _ _ _ _ hq
    rw [List.length_map, hnn, List.length_map] at this
    exact this
  have hnd1 : (endList s.apps p nn act).Nodup := trueAt_nodup _
  have hnd2 : (actList s.apps nn act).Nodup := trueAt_nodup _
  obtain ⟨s2, e2, k1, k2, k3⟩ := switchOn_spec s1 g1 (d.vEnd act) (chosen (d.uEnd act) s1.oneTimeProb (endList s.apps p nn act)) (by
    intro q hq
    rw [g2.owned, g2.apps]
    exact hlt1 q ((mem_chosen_nodup _ _ _ hnd1 q).1 hq).1)
  have eact : (ActSim.cross (nn.map fun k => decide (k > 0)) (s.apps.map fun x => decide (x.info.activity = act))) = actList s.apps nn act := rfl
  obtain ⟨s3, e3, m1, m2, m3⟩ := switchOn_spec s2 k1 (d.vAct act) (chosen (d.uAct act) s2.actProb (actList s.apps nn act)) (by
    intro q hq
    rw [k2.owned, g2.owned, k2.apps, g2.apps]
    exact hlt2 q ((mem_chosen_nodup _ _ _ hnd2 q).1 hq).1)
  refine ⟨s3, ?_, m1, (g2.trans k2).trans m2, ?_⟩
  · simp only [bind, Except.bind, e2, eact]
    exact e3
  intro h a x hh hx
  refine ⟨fun _ => ?_, fun c => absurd hany c⟩
  have hh1 : h < s1.owned.length := by rw [g2.owned]; exact hh
  have hx1 : s1.apps[a]? = some x := by rw [g2.apps]; exact hx
  have hh2 : h < s2.owned.length := by rw [k2.owned]; exact hh1
  have hx2 : s2.apps[a]? = some x := by rw [k2.apps]; exact hx1
  obtain ⟨a1, a2⟩ := k3 h a x hh1 hx1
  obtain ⟨b1, b2⟩ := m3 h a x hh2 hx2
  have hme : (h, a) ∈ endList s.apps p nn act ↔ (0 < p.getD h 0 ∧ nn.getD h 0 = 0) ∧ x.info.previousActivity = some act := by
    have := ent_cross stops (s.apps.map fun x => decide (x.info.previousActivity = some act)) h a _ (decide (x.info.previousActivity = some act)) (hst h hh) (by rw [List.getElem?_map, hx]; rfl)
    rw [hstop, decide_eq_true_eq, est] at this
    exact this
  have hma : (h, a) ∈ actList s.apps nn act ↔ 0 < nn.getD h 0 ∧ x.info.activity = act := by
    have hr : (nn.map fun k => decide (k > 0))[h]? = some (decide (nn.getD h 0 > 0)) := by
      rw [List.getElem?_map, List.getElem?_eq_getElem (by omega), List.getD_eq_getElem?_getD, List.getElem?_eq_getElem (by omega)]
      rfl
    have := ent_cross _ _ h a _ _ hr (hth a x hx)
    rw [decide_eq_true_eq, decide_eq_true_eq] at this
    exact this
  have hu1 : s1.used h a = s.used h a := g2.used c hc h a
  have hu2 : s2.used h a = s.used h a := by rw [k2.used c (g2.cache.trans hc) h a, hu1]
  have hce : (h, a) ∈ chosen (d.uEnd act) s1.oneTimeProb (endList s.apps p nn act) ↔
      x.info.previousActivity = some act ∧ (0 < p.getD h 0 ∧ nn.getD h 0 = 0) ∧ d.uEnd act ((endList s.apps p nn act).idxOf (h, a)) < (if s.used h a then 0 else 1) * s.prob (h, a) := by
    rw [mem_chosen_nodup _ _ _ hnd1, hme]
    have : s1.oneTimeProb (h, a) = (if s.used h a then 0 else 1) * s.prob (h, a) := by
      unfold oneTimeProb
      rw [g2.prob, ← hu1]
      rfl
    rw [this]
    exact ⟨fun ⟨⟨c1, c2⟩, c3⟩ => ⟨c2, c1, c3⟩, fun ⟨c1, c2, c3⟩ => ⟨⟨c2, c1⟩, c3⟩⟩
  have hca : (h, a) ∈ chosen (d.uAct act) s2.actProb (actList s.apps nn act) ↔
      x.info.activity = act ∧ 0 < nn.getD h 0 ∧ s.used h a = false ∧ ¬ dict x ∧ d.uAct act ((actList s.apps nn act).idxOf (h, a)) < s.prob (h, a) := by
    rw [mem_chosen_nodup _ _ _ hnd2, hma]
    have h0 : s2.actProb (h, a) = (if s.used h a = false ∧ ¬ dict x then 1 else 0) * s.prob (h, a) := by
      unfold actProb
      rw [k2.prob, g2.prob]
      congr 1
      refine if_congr ?_ rfl rfl
      rw [Bool.and_eq_true, ← hu2, ← dictated_iff s2 a x hx2]
      unfold used
      simp
    rw [h0]
    have hpos := hd.act act ((actList s.apps nn act).idxOf (h, a))
    by_cases hcc : s.used h a = false ∧ ¬ dict x
    · rw [if_pos hcc, one_mul]
      exact ⟨fun ⟨⟨c1, c2⟩, c3⟩ => ⟨c2, c1, hcc.1, hcc.2, c3⟩, fun ⟨c1, c2, _, _, c3⟩ => ⟨⟨c2, c1⟩, c3⟩⟩
    · rw [if_neg hcc, zero_mul]
      constructor
      · rintro ⟨-, c⟩
        linarith
      · rintro ⟨-, -, c1, c2, -⟩
        exact absurd ⟨c1, c2⟩ hcc
  unfold Round
  simp only
  rw [hpl, Option.getD_some, hperf, ← hce, ← hca]
  constructor
  · intro n1 n2
    rw [b1 n2, a1 n1, g3 h a x hh hx]
  · intro hor
    by_cases hin : (h, a) ∈ chosen (d.uAct act) s2.actProb (actList s.apps nn act)
    · have := b2 hin
      rwa [k2.appl, g2.appl] at this
    · rw [b1 hin]
      have := a2 (hor.resolve_right hin)
      rwa [g2.appl] at this

/-- The activities of a step, one after the other, for an entry. -/
inductive Chain (apps : List AppData) (prev : Activities) (d : ProbDraws) (h a : Nat) (x : AppData) (A : Appl) (used : Bool) (p : Rat) : Activities → Rat → Rat → Prop where
  | nil (l : Rat) : Chain apps prev d h a x A used p [] l l
  | skip (act : Str) (n : List Nat) (rest : Activities) (l l' : Rat) : (¬ ∃ y ∈ apps, y.info.activity = act) → Chain apps prev d h a x A used p rest l l' → Chain apps prev d h a x A used p ((act, n) :: rest) l l'
  | round (act : Str) (n : List Nat) (rest : Activities) (l l1 l' : Rat) : (∃ y ∈ apps, y.info.activity = act) → Round apps prev d h a x A used p act n l l1 → Chain apps prev d h a x A used p rest l1 l' →
      Chain apps prev d h a x A used p ((act, n) :: rest) l l'

theorem fold_spec (d : ProbDraws) (hd : ProbDrawsOk d) (acts : Activities) : ∀ (s : ProbActSim), s.Shaped → ∀ c, s.cache = some c →
    (∀ q ∈ acts, (∃ x ∈ s.apps, x.info.activity = q.1) → ∃ p, s.prev.lookup q.1 = some p ∧ p.length = s.owned.length ∧ q.2.length = s.owned.length) →
    ∃ s', acts.foldlM (fun s q => activity d s q.1 q.2) s = .ok s' ∧ s'.Shaped ∧ Same s s' ∧ ∀ h a x, h < s.owned.length → s.apps[a]? = some x →
      Chain s.apps s.prev d h a x (s.appl h a x) (s.used h a) (s.prob (h, a)) acts (s.lft h a) (s'.lft h a) := by
  induction acts with
  | nil => intro s hs c hc _; exact ⟨s, rfl, hs, Same.refl s, fun h a x _ _ => .nil _⟩
  | cons r acts ih =>
    intro s hs c hc hp
    obtain ⟨r1, r2⟩ := r
    obtain ⟨s1, e1, g1, g2, g3⟩ := activity_spec d hd s hs c hc r1 r2 (hp _ List.mem_cons_self)
    obtain ⟨s', e', k1, k2, k3⟩ := ih s1 g1 c (g2.cache.trans hc) (by
      rw [g2.apps, g2.owned, g2.prev]
      exact fun q hq => hp q (List.mem_cons_of_mem _ hq))
    refine ⟨s', ?_, k1, g2.trans k2, ?_⟩
    · rw [List.foldlM_cons]
      simp only [bind, Except.bind]
      rw [e1]
      exact e'
    · intro h a x hh hx
      have hk := k3 h a x (by rw [g2.owned]; exact hh) (by rw [g2.apps]; exact hx)
      rw [g2.apps, g2.prev, g2.appl, g2.used c hc, g2.prob] at hk
      obtain ⟨m1, m2⟩ := g3 h a x hh hx
      by_cases hany : ∃ y ∈ s.apps, y.info.activity = r1
      · exact .round _ _ _ _ _ _ hany (m1 hany) hk
      · rw [m2 hany] at hk
        exact .skip _ _ _ _ _ hany hk

section chain
variable {apps : List AppData} {prev : Activities} {d : ProbDraws} {h a : Nat} {x : AppData} {A : Appl} {p : Rat}

/-- The activity of the appliance stops in the household. -/
def OffIn (prev : Activities) (h : Nat) (x : AppData) (acts : Activities) : Prop := x.switchOff = true ∧ ∃ n, (x.info.activity, n) ∈ acts ∧ 0 < prev.performing x.info.activity h ∧ n.getD h 0 = 0

theorem offIn_cons_ne {act : Str} {n : List Nat} {rest : Activities} (hne : x.info.activity ≠ act) : OffIn prev h x ((act, n) :: rest) ↔ OffIn prev h x rest := by
  unfold OffIn
  refine and_congr Iff.rfl ⟨?_, ?_⟩
  · rintro ⟨m, hm, hr⟩
    rcases List.mem_cons.1 hm with e | e
    · exact absurd (congrArg Prod.fst e) hne
    · exact ⟨m, e, hr⟩
  · rintro ⟨m, hm, hr⟩
    exact ⟨m, List.mem_cons_of_mem _ hm, hr⟩

theorem mem_ne {act : Str} {n : List Nat} {rest : Activities} (hnd : (((act, n) :: rest).map (·.1)).Nodup) (B : Str) (m : List Nat) (hm : (B, m) ∈ rest) : B ≠ act := by
  rw [List.map_cons, List.nodup_cons] at hnd
  rintro rfl
  exact hnd.1 (List.mem_map.2 ⟨_, hm, rfl⟩)

theorem chain_used (hd : ProbDrawsOk d) {acts : Activities} {l l' : Rat} (hc : Chain apps prev d h a x A true p acts l l') (hx : x ∈ apps) (hnd : (acts.map (·.1)).Nodup) :
    (OffIn prev h x acts → l' = 0) ∧ (¬ OffIn prev h x acts → l' = l) := by
  induction hc with
  | nil l => exact ⟨fun ⟨_, n, hn, _⟩ => by (cases hn), fun _ => rfl⟩
  | skip act n rest l l' hno _ ih =>
    have hne : x.info.activity ≠ act := fun c => hno ⟨x, hx, c⟩
    rw [offIn_cons_ne hne]
    rw [List.map_cons, List.nodup_cons] at hnd
    exact ih hnd.2
  | round act n rest l l1 l' hany hr _ ih =>
    have hnd' := hnd
    rw [List.map_cons, List.nodup_cons] at hnd
    obtain ⟨i1, i2⟩ := ih hnd.2
    have hl1 := hr.1 (by
      rintro ⟨-, -, c⟩
      rw [if_pos rfl, zero_mul] at c
      exact absurd c (not_lt.2 (hd.stop _ _))) (by
      rintro ⟨-, -, c, -⟩
      cases c)
    by_cases hne : x.info.activity = act
    · have hrest : ¬ OffIn prev h x rest := by
        rintro ⟨-, m, hm, -⟩
        exact mem_ne hnd' _ _ hm hne
      have e := i2 hrest
      subst hne
      constructor
      · rintro ⟨hs, m, hm, c1, c2⟩
        have hm' : m = n := by
          rcases List.mem_cons.1 hm with c | c
          · exact congrArg Prod.snd c
          · exact absurd rfl (mem_ne hnd' _ _ c)
        subst hm'
        rw [e, hl1, if_pos ⟨rfl, hs, c1, c2⟩]
      · intro hno
        rw [e, hl1, if_neg]
        rintro ⟨-, hs, c1, c2⟩
        exact hno ⟨hs, n, List.mem_cons_self, c1, c2⟩
    · rw [if_neg (fun c => hne c.1)] at hl1
      rw [offIn_cons_ne hne, ← hl1]
      exact ⟨i1, i2⟩

/-- The appliance starts with its activity. -/
def OnIn (apps : List AppData) (d : ProbDraws) (h a : Nat) (x : AppData) (p : Rat) (acts : Activities) : Prop :=
  ∃ n, (x.info.activity, n) ∈ acts ∧ 0 < n.getD h 0 ∧ d.uAct x.info.activity ((actList apps n x.info.activity).idxOf (h, a)) < p

theorem onIn_cons_ne {act : Str} {n : List Nat} {rest : Activities} (hne : x.info.activity ≠ act) : OnIn apps d h a x p ((act, n) :: rest) ↔ OnIn apps d h a x p rest := by
  unfold OnIn
  refine ⟨?_, ?_⟩
  · rintro ⟨m, hm, hr⟩
    rcases List.mem_cons.1 hm with e | e
    · exact absurd (congrArg Prod.fst e) hne
    · exact ⟨m, e, hr⟩
  · rintro ⟨m, hm, hr⟩
    exact ⟨m, List.mem_cons_of_mem _ hm, hr⟩

theorem chain_free {acts : Activities} {l l' : Rat} (hc : Chain apps prev d h a x A false p acts l l') (hx : x ∈ apps) (hnd : (acts.map (·.1)).Nodup) (hdict : ¬ dict x) :
    (OnIn apps d h a x p acts → Lasts A l') ∧ (¬ OnIn apps d h a x p acts → (OffIn prev h x acts → l' = 0) ∧ (¬ OffIn prev h x acts → l' = l)) := by
  have hpa : x.info.previousActivity = none := by
    by_contra hcon
    exact hdict (Or.inr hcon)
  induction hc with
  | nil l => exact ⟨fun ⟨n, hn, _⟩ => by (cases hn), fun _ => ⟨fun ⟨_, n, hn, _⟩ => by (cases hn), fun _ => rfl⟩⟩
  | skip act n rest l l' hno _ ih =>
    have hne : x.info.activity ≠ act := fun c => hno ⟨x, hx, c⟩
    rw [onIn_cons_ne hne, offIn_cons_ne hne]
    rw [List.map_cons, List.nodup_cons] at hnd
    exact ih hnd.2
  | round act n rest l l1 l' hany hr _ ih =>
    have hnd' := hnd
    rw [List.map_cons, List.nodup_cons] at hnd
    obtain ⟨i1, i2⟩ := ih hnd.2
    obtain ⟨r1, r2⟩ := hr
    have hbe : ¬ (x.info.previousActivity = some act ∧ (0 < prev.performing act h ∧ n.getD h 0 = 0) ∧ d.uEnd act ((endList apps ((prev.lookup act).getD []) n act).idxOf (h, a)) < (if false = true then 0 else 1) * p) := by
      rintro ⟨c, -⟩
      rw [hpa] at c
      cases c
    by_cases hne : x.info.activity = act
    · subst hne
      have hrest : ¬ OnIn apps d h a x p rest := by
        rintro ⟨m, hm, -⟩
        exact mem_ne hnd' _ _ hm rfl
      have hrest0 : ¬ OffIn prev h x rest := by
        rintro ⟨-, m, hm, -⟩
        exact mem_ne hnd' _ _ hm rfl
      have e := (i2 hrest).2 hrest0
      have hmem : ∀ m, (x.info.activity, m) ∈ (x.info.activity, n) :: rest → m = n := by
        intro m hm
        rcases List.mem_cons.1 hm with c | c
        · exact congrArg Prod.snd c
        · exact absurd rfl (mem_ne hnd' _ _ c)
      rw [e]
      constructor
      · rintro ⟨m, hm, c1, c2⟩
        rw [hmem m hm] at c1 c2
        exact r2 (Or.inr ⟨rfl, c1, rfl, hdict, c2⟩)
      · intro hno
        have hl1 := r1 hbe (fun c => hno ⟨n, List.mem_cons_self, c.2.1, c.2.2.2.2⟩)
        constructor
        · rintro ⟨hs, m, hm, c1, c2⟩
          rw [hmem m hm] at c2
          rw [hl1, if_pos ⟨rfl, hs, c1, c2⟩]
        · intro hoff
          rw [hl1, if_neg]
          rintro ⟨-, hs, c1, c2⟩
          exact hoff ⟨hs, n, List.mem_cons_self, c1, c2⟩
    · have hba : ¬ (x.info.activity = act ∧ 0 < n.getD h 0 ∧ false = false ∧ ¬ dict x ∧ d.uAct act ((actList apps n act).idxOf (h, a)) < p) := fun c => hne c.1
      have hl1 := r1 hbe hba
      rw [if_neg (fun c => hne c.1)] at hl1
      rw [onIn_cons_ne hne, offIn_cons_ne hne, ← hl1]
      exact ⟨i1, i2⟩

/-- The appliance starts because its previous activity stops. -/
def EndIn (apps : List AppData) (prev : Activities) (d : ProbDraws) (h a : Nat) (x : AppData) (p : Rat) (acts : Activities) : Prop :=
  ∃ B n, (B, n) ∈ acts ∧ (∃ y ∈ apps, y.info.activity = B) ∧ x.info.previousActivity = some B ∧ (0 < prev.performing B h ∧ n.getD h 0 = 0) ∧
    d.uEnd B ((endList apps ((prev.lookup B).getD []) n B).idxOf (h, a)) < p

theorem EndIn.cons {q : Str × List Nat} {rest : Activities} (he : EndIn apps prev d h a x p rest) : EndIn apps prev d h a x p (q :: rest) := by
  obtain ⟨B, n, hm, hr⟩ := he
  exact ⟨B, n, List.mem_cons_of_mem _ hm, hr⟩

theorem OffIn.cons {q : Str × List Nat} {rest : Activities} (he : OffIn prev h x rest) : OffIn prev h x (q :: rest) := by
  obtain ⟨hs, n, hm, hr⟩ := he
  exact ⟨hs, n, List.mem_cons_of_mem _ hm, hr⟩

/-- A dictated appliance not in use at the start of the step comes to run only when its previous activity stops. -/
theorem chain_dict {acts : Activities} {l l' : Rat} (hc : Chain apps prev d h a x A false p acts l l') (hdict : dict x) (S : Rat → Prop) (hS : S 0) (G : Prop) (hG : EndIn apps prev d h a x p acts → G)
    (hl : S l ∨ (Lasts A l ∧ G)) : S l' ∨ (Lasts A l' ∧ G) := by
  induction hc with
  | nil l => exact hl
  | skip act n rest l l' hno _ ih => exact ih (fun c => hG c.cons) hl
  | round act n rest l l1 l' hany hr _ ih =>
    refine ih (fun c => hG c.cons) ?_
    obtain ⟨r1, r2⟩ := hr
    by_cases hbe : x.info.previousActivity = some act ∧ (0 < prev.performing act h ∧ n.getD h 0 = 0) ∧ d.uEnd act ((endList apps ((prev.lookup act).getD []) n act).idxOf (h, a)) < (if false = true then 0 else 1) * p
    · refine Or.inr ⟨r2 (Or.inl hbe), hG ⟨act, n, List.mem_cons_self, hany, hbe.1, hbe.2.1, ?_⟩⟩
      have := hbe.2.2
      simpa using this
    · have hl1 := r1 hbe (fun c => c.2.2.2.1 hdict)
      rw [hl1]
      split
      · exact Or.inl hS
      · exact hl

/-- A dictated appliance that does not start goes on, or off with its activity. -/
theorem chain_still {acts : Activities} {l l' : Rat} (hc : Chain apps prev d h a x A false p acts l l') (hx : x ∈ apps) (hnd : (acts.map (·.1)).Nodup) (hdict : dict x) (hno : ¬ EndIn apps prev d h a x p acts) :
    (OffIn prev h x acts → l' = 0) ∧ (¬ OffIn prev h x acts → l' = l) := by
  induction hc with
  | nil l => exact ⟨fun ⟨_, n, hn, _⟩ => by (cases hn), fun _ => rfl⟩
  | skip act n rest l l' hno' _ ih =>
    have hne : x.info.activity ≠ act := fun c => hno' ⟨x, hx, c⟩
    rw [offIn_cons_ne hne]
    rw [List.map_cons, List.nodup_cons] at hnd
    exact ih hnd.2 (fun c => hno c.cons)
  | round act n rest l l1 l' hany hr _ ih =>
    have hnd' := hnd
    rw [List.map_cons, List.nodup_cons] at hnd
    obtain ⟨i1, i2⟩ := ih hnd.2 (fun c => hno c.cons)
    have hl1 := hr.1 (by
      intro c
      refine hno ⟨act, n, List.mem_cons_self, hany, c.1, c.2.1, ?_⟩
      have := c.2.2
      simpa using this) (fun c => c.2.2.2.1 hdict)
    by_cases hne : x.info.activity = act
    · have hrest : ¬ OffIn prev h x rest := by
        rintro ⟨-, m, hm, -⟩
        exact mem_ne hnd' _ _ hm hne
      have e := i2 hrest
      subst hne
      constructor
      · rintro ⟨hs, m, hm, c1, c2⟩
        have hm' : m = n := by
          rcases List.mem_cons.1 hm with c | c
          · exact congrArg Prod.snd c
          · exact absurd rfl (mem_ne hnd' _ _ c)
        subst hm'
        rw [e, hl1, if_pos ⟨rfl, hs, c1, c2⟩]
      · intro hno
        rw [e, hl1, if_neg]
        rintro ⟨-, hs, c1, c2⟩
        exact hno ⟨hs, n, List.mem_cons_self, c1, c2⟩
    · rw [if_neg (fun c => hne c.1)] at hl1
      rw [offIn_cons_ne hne, ← hl1]
      exact ⟨i1, i2⟩

/-- A dictated appliance that started, and whose activity does not stop, keeps running. -/
theorem chain_must {acts : Activities} {l l' : Rat} (hc : Chain apps prev d h a x A false p acts l l') (hdict : dict x) (hoff : ¬ OffIn prev h x acts)
    (hl : Lasts A l ∨ EndIn apps prev d h a x p acts) : Lasts A l' := by
  induction hc with
  | nil l =>
    rcases hl with c | ⟨B, n, hm, -⟩
    · exact c
    · cases hm
  | skip act n rest l l' hno _ ih =>
    refine ih (fun c => hoff c.cons) ?_
    rcases hl with c | ⟨B, m, hm, hr⟩
    · exact Or.inl c
    · rcases List.mem_cons.1 hm with e | e
      · cases e
        exact absurd hr.1 hno
      · exact Or.inr ⟨B, m, e, hr⟩
  | round act n rest l l1 l' hany hr _ ih =>
    refine ih (fun c => hoff c.cons) ?_
    obtain ⟨r1, r2⟩ := hr
    by_cases hbe : x.info.previousActivity = some act ∧ (0 < prev.performing act h ∧ n.getD h 0 = 0) ∧ d.uEnd act ((endList apps ((prev.lookup act).getD []) n act).idxOf (h, a)) < (if false = true then 0 else 1) * p
    · exact Or.inl (r2 (Or.inl hbe))
    · have hl1 := r1 hbe (fun c => c.2.2.2.1 hdict)
      rw [if_neg (by
        rintro ⟨c0, c1, c2⟩
        exact hoff ⟨c1, n, by rw [c0]; exact List.mem_cons_self, by rw [c0]; exact c2.1, c2.2⟩)] at hl1
      rw [hl1]
      rcases hl with c | ⟨B, m, hm, hr⟩
      · exact Or.inl c
      · rcases List.mem_cons.1 hm with e | e
        · cases e
          refine absurd ⟨hr.2.1, hr.2.2.1, ?_⟩ hbe
          have := hr.2.2.2
          simpa using this
        · exact Or.inr ⟨B, m, e, hr⟩

end chain

end ProbActSim

end Demod
