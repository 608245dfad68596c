import Verif.Lemmas.OccSimGet
import Verif.Spec.ActSim

/-! # Steps of `ActivityApplianceSimulator`, entry by entry -/

namespace Demod

theorem ent_setEntries_map {α : Type} {n k : Nat} (at' : List (Nat × Nat)) (f : Nat × Nat → α) {m : List (List α)} (hm : Rect n k m) (hnd : at'.Nodup) (h a : Nat) (hh : h < n) (ha : a < k) :
    ent (setEntries m at' (at'.map f)) h a = if (h, a) ∈ at' then some (f (h, a)) else ent m h a := by
  by_cases hq : (h, a) ∈ at'
  · rw [if_pos hq]
    obtain ⟨i, hi⟩ := List.mem_iff_getElem?.1 hq
    exact setEntries_hit at' _ hm hnd h a hh ha i _ hi (by rw [List.getElem?_map, hi]; rfl)
  · rw [if_neg hq]
    exact setEntries_miss at' _ hm h a hh ha hq

theorem ent_cross (hh' app : List Bool) (h a : Nat) (b c : Bool) (hb : hh'[h]? = some b) (hc : app[a]? = some c) : (h, a) ∈ ActSim.cross hh' app ↔ (b = true ∧ c = true) := by
  unfold ActSim.cross
  rw [mem_trueAt]
  unfold ent
  rw [List.getElem?_map, hb, Option.map_some, Option.bind_some, List.getElem?_map, hc, Option.map_some]
  cases b <;> cases c <;> simp

theorem cross_lt (hh' app : List Bool) (h a : Nat) (hq : (h, a) ∈ ActSim.cross hh' app) : h < hh'.length ∧ a < app.length := by
  unfold ActSim.cross at hq
  rw [mem_trueAt] at hq
  exact Rect.of_ent (n := hh'.length) (k := app.length) ⟨by simp, fun r hr => by obtain ⟨-, -, rfl⟩ := List.mem_map.1 hr; simp⟩ hq

namespace ActSim

/-- The arrays have a row per household and a column per appliance. -/
structure Shaped (s : ActSim) : Prop where
  owned : Rect s.owned.length s.apps.length s.owned
  left : Rect s.owned.length s.apps.length s.left
  till : Rect s.owned.length s.apps.length s.till
  used : Rect s.owned.length s.apps.length s.used

/-- The equipment is the same. -/
structure Frame (s s' : ActSim) : Prop where
  apps : s'.apps = s.apps
  owned : s'.owned = s.owned
  choice : s'.choice = s.choice

theorem Frame.refl (s : ActSim) : Frame s s := ⟨rfl, rfl, rfl⟩

theorem Frame.trans {s t u : ActSim} (h : Frame s t) (h' : Frame t u) : Frame s u := ⟨h'.apps.trans h.apps, h'.owned.trans h.owned, h'.choice.trans h.choice⟩

theorem Frame.appl {s t : ActSim} (h : Frame s t) (i a : Nat) (x : AppData) : t.appl i a x = s.appl i a x := by
  unfold ActSim.appl
  rw [h.owned, h.choice]

/-- The state without the number of residents, which is given. -/
def stp (s : ActSim) (h a p : Nat) : Appl.ActState := ⟨⟨(s.left.getD h []).getD a 0, (s.till.getD h []).getD a 0⟩, (s.used.getD h []).getD a false, p⟩

theorem switchOn_spec (s : ActSim) (hs : s.Shaped) (at' : List (Nat × Nat)) (hnd : at'.Nodup) (hlt : ∀ q ∈ at', q.1 < s.owned.length ∧ q.2 < s.apps.length) :
    ∃ s', s.switchOn at' = .ok s' ∧ s'.Shaped ∧ Frame s s' ∧ s'.prev = s.prev ∧ ∀ h a x p, h < s.owned.length → s.apps[a]? = some x →
      s'.stp h a p = if (h, a) ∈ at' then (s.appl h a x).actSwitchOn (s.stp h a p) else s.stp h a p := by
  obtain ⟨xs, exs, hxs⟩ : ∃ xs : List AppData, ((at'.filter fun q => s.choice.varLoad q.2).mapM fun q => pyGet s.apps q.2) = .ok xs ∧
      ((((at'.filter fun q => s.choice.varLoad q.2).map fun q => s.choice.duration q.1 q.2).zip xs).map fun q => ((q.1 + q.2.delay : Nat) : Int)) =
        (at'.filter fun q => s.choice.varLoad q.2).map fun q => ((s.choice.duration q.1 q.2 + ((s.apps[q.2]?).map fun x => x.delay).getD 0 : Nat) : Int) := by
    generalize hl : (at'.filter fun q => s.choice.varLoad q.2) = l
    have hl' : ∀ q ∈ l, q.2 < s.apps.length := by
      intro q hq
      rw [← hl] at hq
      exact (hlt q (List.mem_filter.1 hq).1).2
    clear hl
    induction l with
    | nil => exact ⟨[], rfl, rfl⟩
    | cons q l ih =>
      obtain ⟨xs, e, hx⟩ := ih fun q hq => hl' q (List.mem_cons_of_mem _ hq)
      have hq := List.getElem?_eq_getElem (hl' q List.mem_cons_self)
      refine ⟨s.apps[q.2]'(hl' q List.mem_cons_self) :: xs, ?_, ?_⟩
      · rw [List.mapM_cons, pyGet, hq]
        simp only [bind, Except.bind, pure, Except.pure]
        rw [e]
      · rw [List.map_cons, List.zip_cons_cons, List.map_cons, List.map_cons, hx, hq]
        rfl
  have hV : (at'.filter fun q => s.choice.varLoad q.2).Nodup := hnd.filter _
  have hC : (at'.filter fun q => !s.choice.varLoad q.2).Nodup := hnd.filter _
  refine ⟨{ s with
    left := setEntries s.left (at'.filter fun q => s.choice.varLoad q.2) ((at'.filter fun q => s.choice.varLoad q.2).map fun q => ((s.choice.duration q.1 q.2 : Nat) : Rat))
    till := setEntries s.till (at'.filter fun q => s.choice.varLoad q.2) ((at'.filter fun q => s.choice.varLoad q.2).map fun q => ((s.choice.duration q.1 q.2 + ((s.apps[q.2]?).map fun x => x.delay).getD 0 : Nat) : Int))
    used := setEntries (setEntries s.used (at'.filter fun q => s.choice.varLoad q.2) ((at'.filter fun q => s.choice.varLoad q.2).map fun _ => true)) (at'.filter fun q => !s.choice.varLoad q.2)
      ((at'.filter fun q => !s.choice.varLoad q.2).map fun _ => true) }, by unfold switchOn; simp only [bind, Except.bind, exs, hxs, List.map_map, Function.comp_def], ?_, ⟨rfl, rfl, rfl⟩, rfl, ?_⟩
  · exact ⟨hs.owned, rect_setEntries _ _ hs.left, rect_setEntries _ _ hs.till, rect_setEntries _ _ (rect_setEntries _ _ hs.used)⟩
  · intro h a x p hh hx
    have ha : a < s.apps.length := (List.getElem?_eq_some_iff.1 hx).1
    obtain ⟨l, el⟩ := hs.left.ent hh ha
    obtain ⟨t, et⟩ := hs.till.ent hh ha
    obtain ⟨u, eu⟩ := hs.used.ent hh ha
    have e1 := ent_setEntries_map (at'.filter fun q => s.choice.varLoad q.2) (fun q => ((s.choice.duration q.1 q.2 : Nat) : Rat)) hs.left hV h a hh ha
    have e2 := ent_setEntries_map (at'.filter fun q => s.choice.varLoad q.2) (fun q => ((s.choice.duration q.1 q.2 + ((s.apps[q.2]?).map fun x => x.delay).getD 0 : Nat) : Int)) hs.till hV h a hh ha
    have e3 := ent_setEntries_map (at'.filter fun q => s.choice.varLoad q.2) (fun _ => true) hs.used hV h a hh ha
    have e4 := ent_setEntries_map (at'.filter fun q => !s.choice.varLoad q.2) (fun _ => true)
      (rect_setEntries (at'.filter fun q => s.choice.varLoad q.2) ((at'.filter fun q => s.choice.varLoad q.2).map fun _ => true) hs.used) hC h a hh ha
    rw [e3] at e4
    simp only [List.mem_filter, hx, Option.map_some, Option.getD_some] at e1 e2 e4
    unfold stp
    rw [ent_getD el, ent_getD et, ent_getD eu]
    by_cases hm : (h, a) ∈ at'
    · rw [if_pos hm]
      unfold Appl.actSwitchOn appl applOf
      by_cases hv : s.choice.varLoad a = true
      · simp only [hm, hv, true_and, if_true, Bool.not_true, Bool.false_eq_true, and_false, if_false] at e1 e2 e4 ⊢
        rw [ent_getD e1, ent_getD e2, ent_getD e4]
        have := truncRat_natCast (s.choice.duration h a + x.delay)
        push_cast at this ⊢
        rw [this]
      · simp only [Bool.not_eq_true] at hv
        simp only [hm, hv, Bool.false_eq_true, and_false, if_false, Bool.not_false, and_true, if_true] at e1 e2 e4 ⊢
        rw [ent_getD (e1.trans el), ent_getD (e2.trans et), ent_getD e4]
    · simp only [hm, false_and, if_false] at e1 e2 e4 ⊢
      rw [ent_getD (e1.trans el), ent_getD (e2.trans et), ent_getD (e4.trans eu)]

theorem switchOff_spec (s : ActSim) (hs : s.Shaped) (at' : List (Nat × Nat)) (hnd : at'.Nodup) :
    (s.switchOff at').Shaped ∧ ∀ h a x p, h < s.owned.length → s.apps[a]? = some x →
      (s.switchOff at').stp h a p = if (h, a) ∈ at' then { s.stp h a p with used := false } else s.stp h a p := by
  refine ⟨⟨hs.owned, hs.left, hs.till, rect_setEntries _ _ hs.used⟩, ?_⟩
  intro h a x p hh hx
  have ha : a < s.apps.length := (List.getElem?_eq_some_iff.1 hx).1
  obtain ⟨u, eu⟩ := hs.used.ent hh ha
  have e3 := ent_setEntries_map at' (fun _ => false) hs.used hnd h a hh ha
  unfold stp switchOff
  by_cases hm : (h, a) ∈ at'
  · rw [if_pos hm] at e3 ⊢
    simp only
    rw [ent_getD e3]
  · rw [if_neg hm] at e3 ⊢
    simp only
    rw [ent_getD (e3.trans eu), ent_getD eu]

theorem update_spec (s : ActSim) (hs : s.Shaped) :
    s.update.Shaped ∧ ∀ h a x p, h < s.owned.length → s.apps[a]? = some x → s.update.stp h a p = { s.stp h a p with base := (s.appl h a x).actDecrement (s.stp h a p).base } := by
  have r1 : Rect s.owned.length s.apps.length (s.left.map fun r => r.map fun x => if x > 0 then x - 1 else x) := rect_map hs.left _
  have r2 : Rect s.owned.length s.apps.length (s.till.map fun r => r.map fun x => if x > 0 then x - 1 else x) := rect_map hs.till _
  refine ⟨⟨hs.owned, rect_setEntries _ _ r1, rect_setEntries _ _ r2, hs.used⟩, ?_⟩
  intro h a x p hh hx
  have ha : a < s.apps.length := (List.getElem?_eq_some_iff.1 hx).1
  obtain ⟨l, el⟩ := hs.left.ent hh ha
  obtain ⟨t, et⟩ := hs.till.ent hh ha
  have m1 : ent (s.left.map fun r => r.map fun x => if x > 0 then x - 1 else x) h a = some (if l > 0 then l - 1 else l) := by rw [ent_map, el]; rfl
  have m2 : ent (s.till.map fun r => r.map fun x => if x > 0 then x - 1 else x) h a = some (if t > 0 then t - 1 else t) := by rw [ent_map, et]; rfl
  have m0 : ent (s.left.map fun r => r.map fun x => decide (x > 0)) h a = some (decide (l > 0)) := by rw [ent_map, el]; rfl
  obtain ⟨before, eb⟩ : ∃ before, before = s.left.map fun r => r.map fun x => decide (x > 0) := ⟨_, rfl⟩
  obtain ⟨left, ee⟩ : ∃ left, left = s.left.map fun r => r.map fun x => if x > 0 then x - 1 else x := ⟨_, rfl⟩
  obtain ⟨till, e'⟩ : ∃ till, till = s.till.map fun r => r.map fun x => if x > 0 then x - 1 else x := ⟨_, rfl⟩
  have hmem : (h, a) ∈ trueAt ((before.zip left).zipIdx.map fun r => (r.1.1.zip r.1.2).zipIdx.map fun q => q.1.1 && !decide (q.1.2 > 0) && s.choice.varLoad q.2) ↔
      (l > 0 ∧ ¬ (if l > 0 then l - 1 else l) > 0 ∧ s.choice.varLoad a = true) := by
    rw [mem_trueAt]
    rw [← eb] at m0
    rw [← ee] at m1
    unfold ent at m0 m1 ⊢
    obtain ⟨ra, f1, f2⟩ := Option.bind_eq_some_iff.1 m0
    obtain ⟨rb, f3, f4⟩ := Option.bind_eq_some_iff.1 m1
    rw [List.getElem?_map, List.getElem?_zipIdx, zip_get (z := (ra, rb)) f1 f3, Option.map_some, Option.map_some, Option.bind_some, List.getElem?_map, List.getElem?_zipIdx, zip_get (z := (decide (l > 0), if l > 0 then l - 1 else l)) f2 f4, Option.map_some, Option.map_some]
    simp only [Option.some.injEq, Bool.and_eq_true, decide_eq_true_eq, Bool.not_eq_true', decide_eq_false_iff_not, Nat.zero_add, and_assoc]
  obtain ⟨reload, er⟩ : ∃ reload, reload = trueAt ((before.zip left).zipIdx.map fun r => (r.1.1.zip r.1.2).zipIdx.map fun q => q.1.1 && !decide (q.1.2 > 0) && s.choice.varLoad q.2) := ⟨_, rfl⟩
  have hnd : reload.Nodup := by rw [er]; exact trueAt_nodup _
  rw [← er] at hmem
  rw [← ee] at m1 r1
  rw [← e'] at m2 r2
  have e1 := ent_setEntries_map reload (fun q => (left.getD q.1 []).getD q.2 0 + (s.choice.duration q.1 q.2 : Rat)) r1 hnd h a hh ha
  have e2 := ent_setEntries_map reload (fun q => (till.getD q.1 []).getD q.2 0 + (s.choice.duration q.1 q.2 : Int)) r2 hnd h a hh ha
  have hu : s.update = { s with
      left := setEntries left reload (reload.map fun q => (left.getD q.1 []).getD q.2 0 + (s.choice.duration q.1 q.2 : Rat))
      till := setEntries till reload (reload.map fun q => (till.getD q.1 []).getD q.2 0 + (s.choice.duration q.1 q.2 : Int)) } := by
    rw [er, eb, ee, e']
    rfl
  rw [hu]
  unfold stp Appl.actDecrement Appl.decrement appl applOf
  simp only
  rw [ent_getD el, ent_getD et]
  rw [ent_getD m1, m1] at e1
  rw [ent_getD m2, m2] at e2
  by_cases hc : l > 0 ∧ ¬ (if l > 0 then l - 1 else l) > 0 ∧ s.choice.varLoad a = true
  · rw [if_pos (hmem.2 hc)] at e1 e2
    rw [if_pos hc, ent_getD e1, ent_getD e2]
  · rw [if_neg (fun q => hc (hmem.1 q))] at e1 e2
    rw [if_neg hc, ent_getD e1, ent_getD e2]

/-- A step before the profiles are advanced, for an appliance whose activity was performed by `p` and is performed by `n` residents. -/
def change (A : Appl) (s : Appl.ActState) (p n : Nat) : Appl.ActState :=
  let s1 := if decide (p ≠ n) && decide (n = 0) && A.switchOff then { s with used := false } else s
  if decide (p ≠ n) && decide (p = 0) then A.actSwitchOn s1 else s1

theorem change_step (A : Appl) (s : Appl.ActState) (n : Nat) : A.actStep s n = { change A s s.performing n with performing := n, base := A.actDecrement (change A s s.performing n).base } := by
  unfold change Appl.actStep
  simp only

theorem activity_spec (s : ActSim) (hs : s.Shaped) (act : Str) (nn : List Nat)
    (hp : (∃ x ∈ s.apps, x.info.activity = act) → ∃ p, s.prev.lookup act = some p ∧ p.length = s.owned.length ∧ nn.length = s.owned.length) :
    ∃ s', s.activity act nn = .ok s' ∧ s'.Shaped ∧ Frame s s' ∧ s'.prev = s.prev ∧ ∀ h a x q, h < s.owned.length → s.apps[a]? = some x →
      s'.stp h a q = if x.info.activity = act then change (s.appl h a x) (s.stp h a q) (s.prev.performing act h) (nn.getD h 0) else s.stp h a q := by
  unfold activity
  simp only
  by_cases hany : ∃ x ∈ s.apps, x.info.activity = act
  · obtain ⟨p, hpl, hpn, hnn⟩ := hp hany
    have hthese : (s.apps.map fun x => decide (x.info.activity = act)).any id = true := by
      obtain ⟨x, hx, e⟩ := hany
      rw [List.any_eq_true]
      exact ⟨true, List.mem_map.2 ⟨x, hx, by simpa using e⟩, rfl⟩
    rw [hthese, hpl]
    simp only [Bool.not_true, Bool.false_eq_true, if_false]
    rw [if_neg (by rw [hpn, hnn]; simp)]
    have hperf : ∀ h, s.prev.performing act h = p.getD h 0 := by intro h; unfold Activities.performing; rw [hpl]; rfl
    have hzip : ∀ (f : Nat × Nat → Bool) (h : Nat), h < s.owned.length → ((p.zip nn).map f)[h]? = some (f (p.getD h 0, nn.getD h 0)) := by
      intro f h hh
      have h1 : p[h]? = some (p.getD h 0) := by rw [List.getD_eq_getElem?_getD, List.getElem?_eq_getElem (by omega)]; rfl
      have h2 : nn[h]? = some (nn.getD h 0) := by rw [List.getD_eq_getElem?_getD, List.getElem?_eq_getElem (by omega)]; rfl
      rw [List.getElem?_map, zip_get (z := (p.getD h 0, nn.getD h 0)) h1 h2]
      rfl
    obtain ⟨stops, est⟩ : ∃ stops, stops = (p.zip nn).map fun q => decide (q.1 ≠ q.2) && decide (q.2 = 0) := ⟨_, rfl⟩
    obtain ⟨starts, esa⟩ : ∃ starts, starts = (p.zip nn).map fun q => decide (q.1 ≠ q.2) && decide (q.1 = 0) := ⟨_, rfl⟩
    obtain ⟨off, eof⟩ : ∃ off, off = ((s.apps.map fun x => decide (x.info.activity = act)).zip s.apps).map fun q => q.1 && q.2.switchOff := ⟨_, rfl⟩
    have hst : ∀ h, h < s.owned.length → stops[h]? = some (decide (p.getD h 0 ≠ nn.getD h 0) && decide (nn.getD h 0 = 0)) := by intro h hh; rw [est]; exact hzip _ h hh
    have hsa : ∀ h, h < s.owned.length → starts[h]? = some (decide (p.getD h 0 ≠ nn.getD h 0) && decide (p.getD h 0 = 0)) := by intro h hh; rw [esa]; exact hzip _ h hh
    have hth : ∀ (a : Nat) x, s.apps[a]? = some x → (s.apps.map fun x => decide (x.info.activity = act))[a]? = some (decide (x.info.activity = act)) := by
      intro a x hx; rw [List.getElem?_map, hx]; rfl
    have hof : ∀ (a : Nat) x, s.apps[a]? = some x → off[a]? = some (decide (x.info.activity = act) && x.switchOff) := by
      intro a x hx
      rw [eof, List.getElem?_map, zip_get (z := (decide (x.info.activity = act), x)) (hth a x hx) hx]
      rfl
    rw [← est, ← esa, ← eof]
    obtain ⟨s1, e1⟩ : ∃ s1, s1 = if stops.any id then s.switchOff (cross stops off) else s := ⟨_, rfl⟩
    have hs1 : s1.Shaped ∧ Frame s s1 ∧ s1.prev = s.prev ∧ ∀ h a x q, h < s.owned.length → s.apps[a]? = some x →
        s1.stp h a q = if decide (x.info.activity = act) && (decide (p.getD h 0 ≠ nn.getD h 0) && decide (nn.getD h 0 = 0) && x.switchOff) then { s.stp h a q with used := false } else s.stp h a q := by
      rw [e1]
      by_cases c : stops.any id = true
      · rw [if_pos c]
        obtain ⟨g1, g2⟩ := switchOff_spec s hs (cross stops off) (trueAt_nodup _)
        refine ⟨g1, ⟨rfl, rfl, rfl⟩, rfl, ?_⟩
        intro h a x q hh hx
        rw [g2 h a x q hh hx]
        have := ent_cross stops off h a _ _ (hst h hh) (hof a x hx)
        by_cases hm : (h, a) ∈ cross stops off
        · rw [if_pos hm, if_pos]
          have := this.1 hm
          simp only [Bool.and_eq_true] at this ⊢
          tauto
        · rw [if_neg hm, if_neg]
          intro hcon
          apply hm
          apply this.2
          simp only [Bool.and_eq_true] at hcon ⊢
          tauto
      · rw [if_neg c]
        refine ⟨hs, Frame.refl s, rfl, ?_⟩
        intro h a x q hh hx
        rw [if_neg]
        intro hcon
        apply c
        rw [List.any_eq_true]
        refine ⟨_, List.mem_of_getElem? (hst h hh), ?_⟩
        simp only [Bool.and_eq_true] at hcon
        simp only [id, Bool.and_eq_true]
        tauto
    obtain ⟨g1, g2, g3, g4⟩ := hs1
    rw [← e1]
    by_cases c : starts.any id = true
    · rw [if_pos c]
      obtain ⟨s', e', k1, k2, k3, k4⟩ := switchOn_spec s1 g1 (cross starts (s.apps.map fun (x : AppData) => decide (x.info.activity = act))) (trueAt_nodup _) (by
        rintro ⟨h, a⟩ hq
        have := cross_lt _ _ _ _ hq
        rw [g2.owned, g2.apps]
        refine ⟨?_, by simpa using this.2⟩
        have h1 := this.1
        rw [esa] at h1
        simp only [List.length_map, List.length_zip] at h1
        simp only
        omega)
      refine ⟨s', e', k1, g2.trans k2, k3.trans g3, ?_⟩
      intro h a x q hh hx
      rw [k4 h a x q (by rw [g2.owned]; exact hh) (by rw [g2.apps]; exact hx), g2.appl, g4 h a x q hh hx, hperf]
      have := ent_cross starts _ h a _ _ (hsa h hh) (hth a x hx)
      unfold change
      simp only
      by_cases hact : x.info.activity = act
      · simp only [hact, decide_true, Bool.true_and, if_true]
        simp only [hact, decide_true, and_true] at this
        have hsw : (s.appl h a x).switchOff = x.switchOff := rfl
        rw [hsw]
        by_cases hm : (h, a) ∈ cross starts (s.apps.map fun (x : AppData) => decide (x.info.activity = act))
        · rw [if_pos hm, if_pos (this.1 hm)]
        · rw [if_neg hm, if_neg (fun c => hm (this.2 c))]
      · simp only [hact, decide_false, Bool.false_and, Bool.false_eq_true, if_false]
        rw [if_neg]
        intro hm
        have := (this.1 hm).2
        simp [hact] at this
    · rw [if_neg c]
      refine ⟨s1, rfl, g1, g2, g3, ?_⟩
      intro h a x q hh hx
      rw [g4 h a x q hh hx, hperf]
      have hno : (decide (p.getD h 0 ≠ nn.getD h 0) && decide (p.getD h 0 = 0)) = false := by
        by_contra hcon
        apply c
        rw [List.any_eq_true]
        exact ⟨_, List.mem_of_getElem? (hsa h hh), by simpa using hcon⟩
      unfold change
      simp only
      rw [hno]
      have hsw : (s.appl h a x).switchOff = x.switchOff := rfl
      rw [hsw]
      by_cases hact : x.info.activity = act
      · simp only [hact, decide_true, Bool.true_and, if_true, Bool.false_eq_true, if_false]
      · simp only [hact, decide_false, Bool.false_and, Bool.false_eq_true, if_false]
  · have hthese : (s.apps.map fun x => decide (x.info.activity = act)).any id = false := by
      rw [Bool.eq_false_iff]
      intro c
      rw [List.any_eq_true] at c
      obtain ⟨b, hb, hb'⟩ := c
      obtain ⟨x, hx, e⟩ := List.mem_map.1 hb
      rw [← e] at hb'
      exact hany ⟨x, hx, by simpa using hb'⟩
    rw [hthese]
    refine ⟨s, rfl, hs, Frame.refl s, rfl, ?_⟩
    intro h a x q hh hx
    rw [if_neg]
    intro c
    exact hany ⟨x, List.mem_of_getElem? hx, c⟩

theorem lookup_none_of (acts : Activities) (act : Str) (h : act ∉ acts.map (·.1)) : acts.lookup act = none := by
  rw [List.lookup_eq_none_iff]
  intro q hq
  simp only [bne_iff_ne, ne_eq]
  rintro rfl
  exact h (List.mem_map.2 ⟨q, hq, rfl⟩)

theorem fold_spec (acts : Activities) : ∀ (s : ActSim), s.Shaped → (acts.map (·.1)).Nodup →
    (∀ q ∈ acts, (∃ x ∈ s.apps, x.info.activity = q.1) → ∃ p, s.prev.lookup q.1 = some p ∧ p.length = s.owned.length ∧ q.2.length = s.owned.length) →
    ∃ s', acts.foldlM (fun s q => s.activity q.1 q.2) s = .ok s' ∧ s'.Shaped ∧ Frame s s' ∧ s'.prev = s.prev ∧ ∀ h a x q, h < s.owned.length → s.apps[a]? = some x →
      s'.stp h a q = match acts.lookup x.info.activity with
        | some nn => change (s.appl h a x) (s.stp h a q) (s.prev.performing x.info.activity h) (nn.getD h 0)
        | none => s.stp h a q := by
  induction acts with
  | nil => intro s hs _ _; exact ⟨s, rfl, hs, Frame.refl s, rfl, fun h a x q _ _ => rfl⟩
  | cons r acts ih =>
    intro s hs hnd hp
    rw [List.map_cons, List.nodup_cons] at hnd
    obtain ⟨s1, e1, g1, g2, g3, g4⟩ := activity_spec s hs r.1 r.2 (hp r List.mem_cons_self)
    obtain ⟨s', e', k1, k2, k3, k4⟩ := ih s1 g1 hnd.2 (by
      rw [g2.apps, g2.owned, g3]
      exact fun q hq => hp q (List.mem_cons_of_mem _ hq))
    refine ⟨s', ?_, k1, g2.trans k2, k3.trans g3, ?_⟩
    · rw [List.foldlM_cons, e1]
      exact e'
    · intro h a x q hh hx
      rw [k4 h a x q (by rw [g2.owned]; exact hh) (by rw [g2.apps]; exact hx), g4 h a x q hh hx, g2.appl, g3]
      obtain ⟨r1, r2⟩ := r
      rw [List.lookup_cons]
      by_cases hact : x.info.activity = r1
      · rw [hact, lookup_none_of acts r1 hnd.1]
        simp
      · have : (x.info.activity == r1) = false := by simpa using hact
        rw [this, if_neg hact]

theorem step_spec (s : ActSim) (hs : s.Shaped) (acts : Activities) (hnd : (acts.map (·.1)).Nodup)
    (hp : ∀ q ∈ acts, (∃ x ∈ s.apps, x.info.activity = q.1) → ∃ p, s.prev.lookup q.1 = some p ∧ p.length = s.owned.length ∧ q.2.length = s.owned.length) :
    ∃ s', s.step acts = .ok s' ∧ s'.Shaped ∧ Frame s s' ∧ s'.prev = acts ∧ ∀ h a x, h < s.owned.length → s.apps[a]? = some x →
      (x.info.activity ∈ acts.map (·.1) → s'.st h a x = (s.appl h a x).actStep (s.st h a x) (acts.performing x.info.activity h)) ∧
      (x.info.activity ∉ acts.map (·.1) → x.info.activity ∉ s.prev.map (·.1) → s'.st h a x = (s.appl h a x).actStepAlwaysOn (s.st h a x)) := by
  obtain ⟨s1, e1, g1, g2, g3, g4⟩ := fold_spec acts s hs hnd hp
  have g1' : ({ s1 with prev := acts } : ActSim).Shaped := ⟨g1.owned, g1.left, g1.till, g1.used⟩
  obtain ⟨k1, k2⟩ := update_spec { s1 with prev := acts } g1'
  refine ⟨_, ?_, k1, ⟨g2.apps, g2.owned, g2.choice⟩, rfl, ?_⟩
  · unfold step
    simp only [bind, Except.bind, e1]
  · intro h a x hh hx
    have e2 : ∀ q, ({ s1 with prev := acts } : ActSim).update.stp h a q = _ := fun q => k2 h a x q (by rw [← g2.owned] at hh; exact hh) (by rw [← g2.apps] at hx; exact hx)
    have e3 : ∀ q, ({ s1 with prev := acts } : ActSim).stp h a q = _ := fun q => g4 h a x q hh hx
    have e4 : ({ s1 with prev := acts } : ActSim).appl h a x = s.appl h a x := g2.appl h a x
    change (_ → ({ s1 with prev := acts } : ActSim).update.stp h a (acts.performing x.info.activity h) = _) ∧ (_ → _ → ({ s1 with prev := acts } : ActSim).update.stp h a (acts.performing x.info.activity h) = _)
    rw [e2, e3, e4]
    constructor
    · intro hk
      cases hl : acts.lookup x.info.activity with
      | none =>
        rw [List.lookup_eq_none_iff] at hl
        obtain ⟨q, hq, e⟩ := List.mem_map.1 hk
        have := hl q hq
        simp [e] at this
      | some nn =>
        have hperf : acts.performing x.info.activity h = nn.getD h 0 := by unfold Activities.performing; rw [hl]; rfl
        rw [hperf, change_step]
        simp only
        have hc : ∀ q q', change (s.appl h a x) (s.stp h a q) (s.prev.performing x.info.activity h) (nn.getD h 0) =
            { change (s.appl h a x) (s.stp h a q') (s.prev.performing x.info.activity h) (nn.getD h 0) with performing := q } := by
          intro q q'
          unfold change Appl.actSwitchOn stp
          split_ifs <;> rfl
        rw [hc (nn.getD h 0) (s.prev.performing x.info.activity h)]
        rfl
    · intro h1 h2
      rw [lookup_none_of acts _ h1]
      have hp1 : acts.performing x.info.activity h = 0 := by unfold Activities.performing; rw [lookup_none_of acts _ h1]; rfl
      have hp2 : s.prev.performing x.info.activity h = 0 := by unfold Activities.performing; rw [lookup_none_of s.prev _ h2]; rfl
      unfold Appl.actStepAlwaysOn st stp
      rw [hp1, hp2]

end ActSim

end Demod
