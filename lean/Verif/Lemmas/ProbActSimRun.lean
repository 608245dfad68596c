import Verif.Lemmas.ProbActSim

/-! # Whole steps of `ProbabiliticActivityAppliancesSimulator` -/

namespace Demod

theorem lookup_of_mem (acts : Activities) (hnd : (acts.map (·.1)).Nodup) (B : Str) (n : List Nat) (hm : (B, n) ∈ acts) : acts.lookup B = some n := by
  induction acts with
  | nil => cases hm
  | cons q acts ih =>
    obtain ⟨q1, q2⟩ := q
    rw [List.map_cons, List.nodup_cons] at hnd
    rw [List.lookup_cons]
    rcases List.mem_cons.1 hm with e | e
    · cases e
      simp
    · have hne : (B == q1) = false := by
        rw [beq_eq_false_iff_ne]
        rintro rfl
        exact hnd.1 (List.mem_map.2 ⟨_, e, rfl⟩)
      rw [hne]
      exact ih hnd.2 e

theorem mem_of_lookup' (acts : Activities) (B : Str) (n : List Nat) (h : acts.lookup B = some n) : (B, n) ∈ acts := by
  obtain ⟨l1, l2, e, -⟩ := List.lookup_eq_some_iff.1 h
  rw [e]
  simp

namespace ProbActSim

theorem usageNow_rect (s : ProbActSim) (hs : s.Shaped) : Rect s.owned.length s.apps.length s.usageNow := rect_zip _ hs.left hs.owned

theorem usageNow_ent (s : ProbActSim) (hs : s.Shaped) (h a : Nat) (x : AppData) (hh : h < s.owned.length) (hx : s.apps[a]? = some x) :
    ent s.usageNow h a = some (decide (s.lft h a > 0) && (s.appl h a x).owned) := by
  have ha : a < s.apps.length := (List.getElem?_eq_some_iff.1 hx).1
  obtain ⟨l, el⟩ := hs.left.ent hh ha
  obtain ⟨o, eo⟩ := hs.owned.ent hh ha
  unfold usageNow
  rw [ent_zip s.left s.owned (fun q => decide (q.1 > 0) && q.2) el eo]
  unfold lft appl applOf
  simp only
  rw [ent_getD el, ent_getD eo]

/-- The steps left after the steps have been counted down. -/
def dec (l : Rat) : Rat := if l > 0 then l - 1 else l

/-- The cache is empty or up to date. -/
def Fresh (s : ProbActSim) : Prop := s.cache = none ∨ s.cache = some s.usageNow

theorem Fresh.usage {s : ProbActSim} (h : s.Fresh) : s.usage = s.usageNow := by
  unfold ProbActSim.usage
  rcases h with e | e <;> rw [e] <;> rfl

/-- The use of an appliance of the type that `x` follows ends. -/
def AfterLeft (s : ProbActSim) (h : Nat) (x : AppData) : Prop := ∃ (b : Nat) (y : AppData), s.apps[b]? = some y ∧ x.info.previousType = some y.info.type ∧ 0 < s.lft h b ∧ s.lft h b ≤ 1

/-- Whether an appliance counts as used during a step. -/
def usedIn (s : ProbActSim) (h a : Nat) (x : AppData) : Bool := decide ((if s.cache.isSome then s.lft h a else dec (s.lft h a)) > 0) && (s.appl h a x).owned

/-- What a step does to an entry. -/
structure StepEntry (s : ProbActSim) (d : ProbDraws) (acts : Activities) (h a : Nat) (x : AppData) (l1 l' : Rat) (byType : Prop) : Prop where
  only : byType → s.AfterLeft h x ∧ ∃ j, d.uType j < (if s.usedIn h a x then 0 else 1) * s.prob (h, a)
  all : s.AfterLeft h x → (∀ j, d.uType j < (if s.usedIn h a x then 0 else 1) * s.prob (h, a)) → byType
  no : ¬ byType → l1 = dec (s.lft h a)
  yes : byType → Lasts (s.appl h a x) l1
  chain : Chain s.apps s.prev d h a x (s.appl h a x) (s.usedIn h a x) (s.prob (h, a)) acts l1 l'

theorem prob_step_spec (s : ProbActSim) (hs : s.Shaped) (hf : s.Fresh) (d : ProbDraws) (hd : ProbDrawsOk d) (acts : Activities) (f : Nat) (T : Str) (hfl : f < s.apps.length) (ho : OnlyFollower (s.apps.map (·.info)) f T)
    (hp : ∀ q ∈ acts, (∃ x ∈ s.apps, x.info.activity = q.1) → ∃ p, s.prev.lookup q.1 = some p ∧ p.length = s.owned.length ∧ q.2.length = s.owned.length) :
    ∃ s', step s acts d = .ok s' ∧ s'.Shaped ∧ s'.apps = s.apps ∧ s'.owned = s.owned ∧ s'.choice = s.choice ∧ s'.probs = s.probs ∧ s'.prev = acts ∧ s'.cache = none ∧
      ∀ h a x, h < s.owned.length → s.apps[a]? = some x → ∃ l1 byType, StepEntry s d acts h a x l1 (s'.lft h a) byType := by
  obtain ⟨s1, e1⟩ : ∃ s1 : ProbActSim, s1 = { s with left := s.left.map fun r => r.map fun x => if x > 0 then x - 1 else x } := ⟨_, rfl⟩
  have hs1 : s1.Shaped := by
    rw [e1]
    exact ⟨hs.owned, rect_map hs.left _⟩
  have hl1 : ∀ h a, h < s.owned.length → a < s.apps.length → s1.lft h a = dec (s.lft h a) := by
    intro h a hh ha
    obtain ⟨l, el⟩ := hs.left.ent hh ha
    have := ent_map s.left (fun x : Rat => if x > 0 then x - 1 else x) h a
    unfold lft
    rw [ent_getD el, e1]
    rw [el] at this
    exact ent_getD this
  have ea : s1.apps = s.apps := by rw [e1]
  have eo : s1.owned = s.owned := by rw [e1]
  have ec : s1.choice = s.choice := by rw [e1]
  have ep : s1.probs = s.probs := by rw [e1]
  have ev : s1.prev = s.prev := by rw [e1]
  have ech : s1.cache = s.cache := by rw [e1]
  obtain ⟨st, est⟩ : ∃ st, st = trueAt (((s.left.map fun r => r.map fun x => decide (x > 0)).zip s1.left).map fun r => (r.1.zip r.2).map fun q => q.1 && !decide (q.2 > 0)) := ⟨_, rfl⟩
  have hst : ∀ h a, (h, a) ∈ st ↔ h < s.owned.length ∧ a < s.apps.length ∧ 0 < s.lft h a ∧ s.lft h a ≤ 1 := by
    intro h a
    rw [est, mem_trueAt]
    have hb : Rect s.owned.length s.apps.length (s.left.map fun r => r.map fun x => decide (x > 0)) := rect_map hs.left _
    have hl : Rect s.owned.length s.apps.length s1.left := by
      have := hs1.left
      rwa [ea, eo] at this
    have key : ∀ (hh : h < s.owned.length) (ha : a < s.apps.length), ent (((s.left.map fun r => r.map fun x => decide (x > 0)).zip s1.left).map fun r => (r.1.zip r.2).map fun q => q.1 && !decide (q.2 > 0)) h a =
        some (decide (s.lft h a > 0) && !decide (dec (s.lft h a) > 0)) := by
      intro hh ha
      obtain ⟨l, el⟩ := hs.left.ent hh ha
      obtain ⟨m, em⟩ := hl.ent hh ha
      have e := ent_map s.left (fun x : Rat => decide (x > 0)) h a
      rw [el, Option.map_some] at e
      rw [ent_zip (s.left.map fun r => r.map fun x => decide (x > 0)) s1.left (fun q : Bool × Rat => q.1 && !decide (q.2 > 0)) e em, ← hl1 h a hh ha]
      unfold lft
      rw [ent_getD el, ent_getD em]
    constructor
    · intro he
      obtain ⟨hh, ha⟩ := (rect_zip (fun q : Bool × Rat => q.1 && !decide (q.2 > 0)) hb hl).of_ent he
      rw [key hh ha, Option.some.injEq, Bool.and_eq_true, decide_eq_true_eq, Bool.not_eq_true', decide_eq_false_iff_not] at he
      refine ⟨hh, ha, he.1, ?_⟩
      have := he.2
      unfold dec at this
      rw [if_pos he.1] at this
      linarith
    · rintro ⟨hh, ha, q1, q2⟩
      rw [key hh ha, Option.some.injEq, Bool.and_eq_true, decide_eq_true_eq, Bool.not_eq_true', decide_eq_false_iff_not]
      refine ⟨q1, ?_⟩
      unfold dec
      rw [if_pos q1]
      linarith
  have hfo : s1.followSim.followers = [f] := by
    refine ProbSim.followers_only _ f T ?_ ?_
    · unfold followSim
      rw [ea]
      simpa using hfl
    · unfold followSim
      rw [ea]
      exact ho
  have eafter := ProbSim.startAfter_one s1.followSim f hfo st
  obtain ⟨af, eaf⟩ : ∃ af, af = (st.filter fun q => s1.followSim.followsOn f q.2).map fun q => (q.1, f) := ⟨_, rfl⟩
  rw [← eaf] at eafter
  have haf : ∀ h a x, h < s.owned.length → s.apps[a]? = some x → ((h, a) ∈ af ↔ s.AfterLeft h x) := by
    intro h a x hh hx
    rw [eaf, List.mem_map]
    have ho' := ho a x.info (by rw [List.getElem?_map, hx]; rfl)
    obtain ⟨xf, hxf⟩ : ∃ xf, s.apps[f]? = some xf := ⟨_, List.getElem?_eq_getElem hfl⟩
    have hof := (ho f xf.info (by rw [List.getElem?_map, hxf]; rfl)).1 rfl
    have hon : ∀ b y, s.apps[b]? = some y → (s1.followSim.followsOn f b = true ↔ y.info.type = T) := by
      intro b y hy
      unfold ProbSim.followsOn followSim
      rw [ea]
      simp only [List.getElem?_map, hxf, hy, Option.map_some, Option.bind_some, hof, decide_eq_true_eq, Option.some.injEq]
      exact eq_comm
    constructor
    · rintro ⟨⟨h', b⟩, hm, e⟩
      obtain ⟨rfl, rfl⟩ := Prod.mk.inj e
      obtain ⟨m1, m2⟩ := List.mem_filter.1 hm
      obtain ⟨-, q2, q3, q4⟩ := (hst _ _).1 m1
      have hy := List.getElem?_eq_getElem q2
      refine ⟨b, _, hy, ?_, q3, q4⟩
      rw [ho'.1 rfl, (hon b _ hy).1 m2]
    · rintro ⟨b, y, hy, ht, q3, q4⟩
      have haf : a = f := by
        by_contra hne
        rw [ho'.2 hne] at ht
        cases ht
      subst haf
      rw [ho'.1 rfl] at ht
      exact ⟨(h, b), List.mem_filter.2 ⟨(hst h b).2 ⟨hh, (List.getElem?_eq_some_iff.1 hy).1, q3, q4⟩, (hon b y hy).2 (Option.some.inj ht).symm⟩, rfl⟩
  obtain ⟨s2, e2⟩ : ∃ s2, s2 = s1.observe := ⟨_, rfl⟩
  have hs2 : s2.Shaped := by rw [e2]; exact ⟨hs1.owned, hs1.left⟩
  have hlt : ∀ q ∈ af, q.1 < s2.owned.length ∧ q.2 < s2.apps.length := by
    intro q hq
    rw [eaf, List.mem_map] at hq
    obtain ⟨r, hr, rfl⟩ := hq
    have := (hst r.1 r.2).1 (List.mem_filter.1 hr).1
    rw [e2]
    change r.1 < s1.owned.length ∧ f < s1.apps.length
    rw [ea, eo]
    exact ⟨this.1, hfl⟩
  obtain ⟨s3, e3, g1, g2, g3⟩ := switchOn_spec s2 hs2 d.vType (chosen d.uType s2.oneTimeProb af) (by
    intro q hq
    obtain ⟨j, hj, -⟩ := (mem_chosen _ _ _ _).1 hq
    exact hlt q (List.mem_of_getElem? hj))
  have ec2 : s2.cache = some s1.usage := by rw [e2]; rfl
  have ea3 : s3.apps = s.apps := by rw [g2.apps, e2]; exact ea
  have eo3 : s3.owned = s.owned := by rw [g2.owned, e2]; exact eo
  have ev3 : s3.prev = s.prev := by rw [g2.prev, e2]; exact ev
  obtain ⟨s4, e4, k1, k2, k3⟩ := fold_spec d hd acts s3 g1 _ (g2.cache.trans ec2) (by
    rw [ea3, eo3, ev3]
    exact hp)
  refine ⟨{ s4 with prev := acts, cache := none }, ?_, ⟨k1.owned, k1.left⟩, k2.apps.trans ea3, k2.owned.trans eo3, ?_, ?_, rfl, rfl, ?_⟩
  · unfold step
    simp only [bind, Except.bind]
    rw [← e1, show (s.left.map fun r => r.map fun x => if x > 0 then x - 1 else x) = s1.left from by rw [e1], ← est, eafter, ← e2]
    simp only [e3, e4]
  · exact k2.choice.trans (by rw [g2.choice, e2]; exact ec)
  · exact k2.probs.trans (by rw [g2.probs, e2]; exact ep)
  intro h a x hh hx
  have ha : a < s.apps.length := (List.getElem?_eq_some_iff.1 hx).1
  have eA : s2.appl h a x = s.appl h a x := by
    rw [e2]
    unfold appl
    change applOf s1.owned s1.choice h a x = _
    rw [eo, ec]
  have eP : ∀ q, s2.prob q = s.prob q := by
    intro q
    rw [e2]
    unfold prob
    change (s1.probs.getD _ _).getD _ _ = _
    rw [ep]
  have eU : s2.used h a = s.usedIn h a x := by
    unfold used usage
    rw [ec2, Option.getD_some]
    unfold usage usedIn
    rw [ech]
    have hfl : (s1.usageNow.getD h []).getD a false = (decide (dec (s.lft h a) > 0) && (s.appl h a x).owned) := by
      rw [ent_getD (usageNow_ent s1 hs1 h a x (by rw [eo]; exact hh) (by rw [ea]; exact hx)), hl1 h a hh ha]
      unfold appl
      rw [eo, ec]
    rcases hf with c | c
    · rw [c]
      exact hfl
    · rw [c]
      exact ent_getD (usageNow_ent s hs h a x hh hx)
  have hone : s2.oneTimeProb (h, a) = (if s.usedIn h a x then 0 else 1) * s.prob (h, a) := by
    unfold oneTimeProb
    rw [eP, ← eU]
    rfl
  refine ⟨s3.lft h a, (h, a) ∈ chosen d.uType s2.oneTimeProb af, ?_, ?_, ?_, ?_, ?_⟩
  · intro hm
    obtain ⟨j, h1, h2⟩ := (mem_chosen _ _ _ _).1 hm
    rw [hone] at h2
    exact ⟨(haf h a x hh hx).1 (List.mem_of_getElem? h1), j, h2⟩
  · intro h1 h2
    obtain ⟨j, hj⟩ := List.mem_iff_getElem?.1 ((haf h a x hh hx).2 h1)
    exact (mem_chosen _ _ _ _).2 ⟨j, hj, by rw [hone]; exact h2 j⟩
  · intro hm
    rw [(g3 h a x (by rw [e2]; change h < s1.owned.length; rw [eo]; exact hh) (by rw [e2]; change s1.apps[a]? = _; rw [ea]; exact hx)).1 hm, ← hl1 h a hh ha, e2]
    rfl
  · intro hm
    have := (g3 h a x (by rw [e2]; change h < s1.owned.length; rw [eo]; exact hh) (by rw [e2]; change s1.apps[a]? = _; rw [ea]; exact hx)).2 hm
    rw [eA] at this
    exact this
  · have := k3 h a x (by rw [eo3]; exact hh) (by rw [ea3]; exact hx)
    rw [ea3, ev3, g2.appl, eA, g2.used _ ec2, eU, g2.prob, eP] at this
    exact this

/-! ## Uses -/

/-- The use is the one that the steps left stand for. -/
def UseOk (l : Rat) (u : Use) : Prop := (u = none ∧ l ≤ 0) ∨ ∃ k d, u = some (k, d) ∧ l = d - k ∧ 0 < l

/-- The use after a step that leaves `l'` steps. -/
def useNext (u : Use) (l' : Rat) : Use :=
  if l' ≤ 0 then none else match u with
    | some (k, d) => if l' = d - ((k + 1 : Nat) : Rat) then some (k + 1, d) else some (0, l')
    | none => some (0, l')

theorem useNext_ok (u : Use) (l' : Rat) : UseOk l' (useNext u l') := by
  unfold useNext
  by_cases h : l' ≤ 0
  · rw [if_pos h]
    exact Or.inl ⟨rfl, h⟩
  · rw [if_neg h]
    push Not at h
    right
    match u with
    | none => exact ⟨0, l', rfl, by simp, h⟩
    | some (k, d) =>
      by_cases e : l' = d - ((k + 1 : Nat) : Rat)
      · exact ⟨k + 1, d, by simp only; rw [if_pos e], e, h⟩
      · exact ⟨0, l', by simp only; rw [if_neg e], by simp, h⟩

theorem useNext_off (u : Use) (l' : Rat) (h : l' ≤ 0) : useNext u l' = none := by
  unfold useNext
  rw [if_pos h]

theorem useNext_on (k : Nat) (d l' : Rat) (h : 0 < l') (e : l' = d - (k + 1)) : useNext (some (k, d)) l' = some (k + 1, d) := by
  unfold useNext
  rw [if_neg (not_le.2 h)]
  simp only
  rw [if_pos (by push_cast; exact e)]

theorem useNext_new (u : Use) (l' : Rat) (h : 0 < l') (hu : u = none ∨ u.Ends) : useNext u l' = some (0, l') := by
  unfold useNext
  rw [if_neg (not_le.2 h)]
  rcases hu with rfl | ⟨k, d, rfl, hd⟩
  · rfl
  · simp only
    rw [if_neg]
    intro c
    push_cast at c
    linarith

theorem Lasts.uses {A : Appl} {l : Rat} (h : Lasts A l) (hp : 0 < l ∨ (A.varLoad = true → 0 < A.loadDuration)) : UseLasts A l := by
  cases hv : A.varLoad
  · exact h.2 hv
  · have e := h.1 hv
    have hpos : 0 < A.loadDuration := by
      rcases hp with c | c
      · rw [e] at c
        exact_mod_cast c
      · exact c hv
    exact ⟨fun _ => e, fun c => absurd c (by omega), fun c => absurd c (by omega)⟩

theorem use_step (s : ProbActSim) (d : ProbDraws) (hd : ProbDrawsOk d) (acts : Activities) (hnd : (acts.map (·.1)).Nodup) (use : Nat → Use) (h a : Nat) (x : AppData) (hx : s.apps[a]? = some x)
    (hcov : ∀ y ∈ s.apps, y.info.activity ∈ acts.map (·.1)) (l1 l' : Rat) (byType : Prop)
    (he : StepEntry s d acts h a x l1 l' byType) (hu : ∀ b y, s.apps[b]? = some y → UseOk (s.lft h b) (use b)) (hrow : (s.appl h a x).owned = true → (s.appl h a x).varLoad = true → 0 < (s.appl h a x).loadDuration) :
    UseStep (s.appl h a x) s.cache.isSome (ActStops s.prev acts x.info.activity h)
      (MayStart s.apps use s.prev acts d h x (s.prob (h, a)) ((actList s.apps ((acts.lookup x.info.activity).getD []) x.info.activity).idxOf (h, a)))
      (MustStart s.apps use s.prev acts d h x (s.prob (h, a)) ((actList s.apps ((acts.lookup x.info.activity).getD []) x.info.activity).idxOf (h, a))) (use a) (useNext (use a) l') := by
  have hxm : x ∈ s.apps := List.mem_of_getElem? hx
  have hlook : ∀ B n, (B, n) ∈ acts → acts.lookup B = some n := fun B n => lookup_of_mem acts hnd B n
  have hlook' : ∀ B n, acts.lookup B = some n → (B, n) ∈ acts := fun B n => mem_of_lookup' acts B n
  have hcov' : ∀ y ∈ s.apps, ∃ n, acts.lookup y.info.activity = some n := by
    intro y hy
    obtain ⟨q, hq, e⟩ := List.mem_map.1 (hcov y hy)
    exact ⟨q.2, hlook _ _ (by rw [← e]; exact hq)⟩
  have hperf : ∀ B n, acts.lookup B = some n → ∀ k, acts.performing B k = n.getD k 0 := by
    intro B n e k
    unfold Activities.performing
    rw [e]
    rfl
  have hafter : s.AfterLeft h x ↔ AfterUse s.apps use x := by
    refine exists_congr fun b => exists_congr fun y => and_congr_right fun hy => and_congr_right fun _ => ?_
    rcases hu b y hy with ⟨e1, e2⟩ | ⟨k, c, e1, e2, e3⟩
    · rw [e1]
      exact ⟨fun q => absurd q.1 (not_lt.2 e2), fun ⟨k, c, q, _⟩ => by (cases q)⟩
    · rw [e1, e2]
      constructor
      · rintro ⟨-, q⟩
        exact ⟨k, c, rfl, by linarith⟩
      · rintro ⟨k', c', q, q'⟩
        obtain ⟨rfl, rfl⟩ := Prod.mk.inj (Option.some.inj q)
        exact ⟨by rw [← e2]; exact e3, by linarith⟩
  have hoff : OffIn s.prev h x acts ↔ (s.appl h a x).switchOff = true ∧ ActStops s.prev acts x.info.activity h := by
    change _ ↔ x.switchOff = true ∧ _
    refine and_congr Iff.rfl ⟨?_, ?_⟩
    · rintro ⟨n, hn, h1, h2⟩
      exact ⟨h1, by rw [hperf _ _ (hlook _ _ hn)]; exact h2⟩
    · rintro ⟨h1, h2⟩
      obtain ⟨n, hn⟩ := hcov' x hxm
      exact ⟨n, hlook' _ _ hn, h1, by rw [← hperf _ _ hn]; exact h2⟩
  obtain ⟨own, hown⟩ : ∃ own, own = (actList s.apps ((acts.lookup x.info.activity).getD []) x.info.activity).idxOf (h, a) := ⟨_, rfl⟩
  rw [← hown]
  have hon : ¬ dict x → (OnIn s.apps d h a x (s.prob (h, a)) acts ↔ WithActivity acts d h x (s.prob (h, a)) own) := by
    intro hdict
    unfold dict at hdict
    push Not at hdict
    constructor
    · rintro ⟨n, hn, h1, h2⟩
      have e := hlook _ _ hn
      refine ⟨hdict.1, hdict.2, by rw [hperf _ _ e]; exact h1, ?_⟩
      rw [hown, e]
      exact h2
    · rintro ⟨-, -, h1, h2⟩
      obtain ⟨n, hn⟩ := hcov' x hxm
      rw [hperf _ _ hn] at h1
      rw [hown, hn] at h2
      exact ⟨n, hlook' _ _ hn, h1, h2⟩
  have hend : EndIn s.apps s.prev d h a x (s.prob (h, a)) acts → ∃ B, x.info.previousActivity = some B ∧ ActStops s.prev acts B h ∧ ∃ j, d.uEnd B j < s.prob (h, a) := by
    rintro ⟨B, n, hn, -, h1, ⟨h2, h3⟩, h4⟩
    exact ⟨B, h1, ⟨h2, by rw [hperf _ _ (hlook _ _ hn)]; exact h3⟩, _, h4⟩
  have hend' : (∃ B, x.info.previousActivity = some B ∧ ActStops s.prev acts B h ∧ (∃ y ∈ s.apps, y.info.activity = B) ∧ ∀ j, d.uEnd B j < s.prob (h, a)) → EndIn s.apps s.prev d h a x (s.prob (h, a)) acts := by
    rintro ⟨B, h1, ⟨h2, h3⟩, ⟨y, hy, hyB⟩, h4⟩
    obtain ⟨n, hn⟩ := hcov' y hy
    rw [hyB] at hn
    exact ⟨B, n, hlook' _ _ hn, ⟨y, hy, hyB⟩, h1, ⟨h2, by rw [← hperf _ _ hn]; exact h3⟩, h4 _⟩
  obtain ⟨M, hM⟩ : ∃ M, M = MayStart s.apps use s.prev acts d h x (s.prob (h, a)) own := ⟨_, rfl⟩
  obtain ⟨N, hN⟩ : ∃ N, N = MustStart s.apps use s.prev acts d h x (s.prob (h, a)) own := ⟨_, rfl⟩
  rw [← hM, ← hN]
  obtain ⟨c1, c2, c3, c4, c5⟩ := he
  have K1 : s.usedIn h a x = true → (((s.appl h a x).switchOff = true ∧ ActStops s.prev acts x.info.activity h) → l' = 0) ∧ (¬ ((s.appl h a x).switchOff = true ∧ ActStops s.prev acts x.info.activity h) → l' = dec (s.lft h a)) := by
    intro hU
    rw [hU] at c1 c5
    have hbt : ¬ byType := by
      intro hb
      obtain ⟨-, j, hj⟩ := c1 hb
      rw [if_pos rfl, zero_mul] at hj
      exact absurd hj (not_lt.2 (hd.type j))
    have := chain_used hd c5 hxm hnd
    rw [c3 hbt, hoff] at this
    exact this
  have K2 : s.usedIn h a x = false → (¬ M → (((s.appl h a x).switchOff = true ∧ ActStops s.prev acts x.info.activity h) → l' = 0) ∧ (¬ ((s.appl h a x).switchOff = true ∧ ActStops s.prev acts x.info.activity h) → l' = dec (s.lft h a))) ∧
      ((l' = dec (s.lft h a) ∨ l' = 0) ∨ (Lasts (s.appl h a x) l' ∧ M)) ∧ (N → Lasts (s.appl h a x) l') := by
    intro hU
    rw [hU] at c1 c2 c5
    simp only [Bool.false_eq_true, if_false, one_mul] at c1 c2
    by_cases hdict : dict x
    · have hbM : byType → M := by
        intro hb
        obtain ⟨q1, q2⟩ := c1 hb
        rw [hM]
        exact Or.inr (Or.inl ⟨hafter.1 q1, q2⟩)
      have heM : EndIn s.apps s.prev d h a x (s.prob (h, a)) acts → M := by
        intro q
        rw [hM]
        exact Or.inr (Or.inr (hend q))
      refine ⟨?_, ?_, ?_⟩
      · intro hno
        have := chain_still c5 hxm hnd hdict (fun q => hno (heM q))
        rw [c3 (fun q => hno (hbM q)), hoff] at this
        exact this
      · refine chain_dict c5 hdict (fun l => l = dec (s.lft h a) ∨ l = 0) (Or.inr rfl) M heM ?_
        by_cases hb : byType
        · exact Or.inr ⟨c4 hb, hbM hb⟩
        · exact Or.inl (Or.inl (c3 hb))
      · intro hn
        rw [hN] at hn
        rcases hn with q | ⟨q1, q2⟩
        · exfalso
          rcases hdict with q' | q'
          · exact q' q.1
          · exact q' q.2.1
        · refine chain_must c5 hdict (by rw [hoff]; exact q1) ?_
          rcases q2 with ⟨r1, r2⟩ | r
          · exact Or.inl (c4 (c2 (hafter.2 r1) r2))
          · exact Or.inr (hend' r)
    · have hpt : x.info.previousType = none := by
        by_contra hcon
        exact hdict (Or.inl hcon)
      have hpa : x.info.previousActivity = none := by
        by_contra hcon
        exact hdict (Or.inr hcon)
      have hbt : ¬ byType := by
        intro hb
        obtain ⟨⟨b, y, -, q, -⟩, -⟩ := c1 hb
        rw [hpt] at q
        cases q
      have hau : ¬ AfterUse s.apps use x := by
        rintro ⟨b, y, -, q, -⟩
        rw [hpt] at q
        cases q
      have hMW : M ↔ WithActivity acts d h x (s.prob (h, a)) own := by
        rw [hM]
        constructor
        · rintro (q | q | ⟨B, q, -⟩)
          · exact q
          · exact absurd q.1 hau
          · rw [hpa] at q
            cases q
        · exact Or.inl
      have hNW : N → WithActivity acts d h x (s.prob (h, a)) own := by
        rw [hN]
        rintro (q | ⟨-, q | ⟨B, q, -⟩⟩)
        · exact q
        · exact absurd q.1 hau
        · rw [hpa] at q
          cases q
      obtain ⟨f1, f2⟩ := chain_free c5 hxm hnd hdict
      rw [c3 hbt, hoff, hon hdict] at f2
      rw [hon hdict] at f1
      refine ⟨fun hno => f2 (by rw [← hMW]; exact hno), ?_, fun hn => f1 (hNW hn)⟩
      by_cases hm : M
      · exact Or.inr ⟨f1 (hMW.1 hm), hm⟩
      · left
        obtain ⟨g1, g2⟩ := f2 (by rw [← hMW]; exact hm)
        by_cases ho : (s.appl h a x).switchOff = true ∧ ActStops s.prev acts x.info.activity h
        · exact Or.inr (g1 ho)
        · exact Or.inl (g2 ho)
  have hua := hu a x hx
  have hrun : ∀ k c, use a = some (k, c) → (k + 1 : Rat) < c → 0 < s.lft h a ∧ dec (s.lft h a) = c - (k + 1) ∧ 0 < c - (k + 1 : Rat) := by
    intro k c e hk
    rcases hua with ⟨e1, -⟩ | ⟨k', c', e1, e2, e3⟩
    · rw [e1] at e
      cases e
    · rw [e1] at e
      obtain ⟨rfl, rfl⟩ := Prod.mk.inj (Option.some.inj e)
      refine ⟨e3, ?_, by linarith⟩
      unfold dec
      rw [if_pos e3, e2]
      ring
  have hidle : use a = none ∨ (use a).Ends → dec (s.lft h a) ≤ 0 := by
    intro hi
    rcases hua with ⟨-, e2⟩ | ⟨k', c', e1, e2, e3⟩
    · unfold dec
      rw [if_neg (not_lt.2 e2)]
      exact e2
    · rcases hi with e | ⟨k, c, e, hk⟩
      · rw [e1] at e
        cases e
      · rw [e1] at e
        obtain ⟨rfl, rfl⟩ := Prod.mk.inj (Option.some.inj e)
        unfold dec
        rw [if_pos e3, e2]
        linarith
  have hUon : ∀ k c, use a = some (k, c) → (k + 1 : Rat) < c → (s.appl h a x).owned = true → s.usedIn h a x = true := by
    intro k c e hk ho
    obtain ⟨q1, q2, q3⟩ := hrun k c e hk
    unfold usedIn
    rw [ho, Bool.and_true, decide_eq_true_eq]
    split
    · exact q1
    · rw [q2]
      exact q3
  have hUno : (s.appl h a x).owned = false → s.usedIn h a x = false := by
    intro ho
    unfold usedIn
    rw [ho, Bool.and_false]
  have hUidle : use a = none ∨ ((use a).Ends ∧ (s.cache.isSome = false ∨ (s.appl h a x).owned = false)) → s.usedIn h a x = false := by
    intro hi
    have hdec := hidle (hi.imp id And.left)
    unfold usedIn
    rcases hi with e | ⟨-, e | e⟩
    · have hl : s.lft h a ≤ 0 := by
        rcases hua with ⟨-, e2⟩ | ⟨k', c', e1, -⟩
        · exact e2
        · rw [e1] at e
          cases e
      rw [Bool.and_eq_false_iff]
      left
      rw [decide_eq_false_iff_not]
      split
      · exact not_lt.2 hl
      · exact not_lt.2 hdec
    · rw [e, Bool.and_eq_false_iff]
      left
      rw [decide_eq_false_iff_not]
      simpa using hdec
    · rw [e, Bool.and_false]
  constructor
  · intro k c e hk ho hnoff
    obtain ⟨q1, q2, q3⟩ := hrun k c e hk
    have hl' : l' = dec (s.lft h a) := by
      by_cases hown : (s.appl h a x).owned = true
      · exact (K1 (hUon k c e hk hown)).2 hnoff
      · have hno : ¬ M := ho.resolve_left hown
        exact ((K2 (hUno (by simpa using hown))).1 hno).2 hnoff
    rw [e, useNext_on k c l' (by rw [hl', q2]; exact q3) (by rw [hl', q2])]
  · intro k c e hk ho hs1 hs2
    refine useNext_off _ _ (le_of_eq ?_)
    by_cases hown : (s.appl h a x).owned = true
    · exact (K1 (hUon k c e hk hown)).1 ⟨hs1, hs2⟩
    · have hno : ¬ M := ho.resolve_left hown
      exact ((K2 (hUno (by simpa using hown))).1 hno).1 ⟨hs1, hs2⟩
  · intro hends ho hob
    have hdec := hidle (Or.inr hends)
    have hU : s.usedIn h a x = true := by
      unfold usedIn
      rw [ho, hob, Bool.and_true, decide_eq_true_eq, if_pos rfl]
      rcases hua with ⟨e1, -⟩ | ⟨k', c', e1, e2, e3⟩
      · obtain ⟨k, c, e, -⟩ := hends
        rw [e1] at e
        cases e
      · exact e3
    obtain ⟨q1, q2⟩ := K1 hU
    refine useNext_off _ _ ?_
    by_cases hof : (s.appl h a x).switchOff = true ∧ ActStops s.prev acts x.info.activity h
    · exact le_of_eq (q1 hof)
    · rw [q2 hof]
      exact hdec
  · intro hi
    have hdec := hidle (hi.imp id And.left)
    have hU := hUidle hi
    by_cases hl : l' ≤ 0
    · exact Or.inl (useNext_off _ _ hl)
    · push Not at hl
      right
      rcases (K2 hU).2.1 with (q | q) | ⟨q1, q2⟩
      · rw [q] at hl
        exact absurd hl (not_lt.2 hdec)
      · rw [q] at hl
        exact absurd hl (lt_irrefl _)
      · exact ⟨q2, l', hl, q1.uses (Or.inl hl), useNext_new _ _ hl (hi.imp id And.left)⟩
  · intro hi ho hn
    have hU := hUidle (hi.imp id fun q => ⟨q.1, Or.inl q.2⟩)
    have hL := (K2 hU).2.2 hn
    refine ⟨l', hL.uses (Or.inr (hrow ho)), ?_⟩
    by_cases hl : 0 < l'
    · rw [if_pos hl]
      exact useNext_new _ _ hl (hi.imp id And.left)
    · rw [if_neg hl]
      exact useNext_off _ _ (not_lt.1 hl)
  · intro k c e hk ho
    obtain ⟨q1, q2, q3⟩ := hrun k c e hk
    by_cases hl : l' ≤ 0
    · exact Or.inl (useNext_off _ _ hl)
    · push Not at hl
      right
      by_cases hc : l' = c - (k + 1)
      · left
        rw [e, useNext_on k c l' hl hc]
      · right
        rcases (K2 (hUno ho)).2.1 with (q | q) | ⟨r1, r2⟩
        · exact absurd (q.trans q2) hc
        · rw [q] at hl
          exact absurd hl (lt_irrefl _)
        · refine ⟨r2, l', hl, r1.uses (Or.inl hl), ?_⟩
          rw [e]
          unfold useNext
          rw [if_neg (not_le.2 hl)]
          simp only
          rw [if_neg (by push_cast; exact hc)]

end ProbActSim

end Demod
