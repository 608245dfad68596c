import Verif.Spec.Logger

namespace Demod
variable {σ ι V : Type}

def aggV (sum : V → V) (agg : Bool) (v : V) : V := if agg then sum v else v

/-- The records stored after the visits of the states `h`. -/
def storedOf (sum : V → V) (agg : Bool) : AttrSpec σ V → List (σ × Nat) → Stored V
  | .plain f, h => .list (h.map fun p => .plain (aggV sum agg (f p.1 p.2)))
  | .dict _ _, [] => .list []
  | .dict ks f, h@(_ :: _) =>
    .dict (ks.map fun k => (k, h.map fun p => aggV sum agg (f k p.1 p.2)))

theorem appendKey_map (ks : List String) (hn : ks.Nodup) (g : String → List V) (k : String)
    (hk : k ∈ ks) (v : V) :
    Logger.appendKey (ks.map fun k => (k, g k)) k v
      = .ok (ks.map fun k' => (k', if k' = k then g k' ++ [v] else g k')) := by
  induction ks with
  | nil => simp at hk
  | cons a ks ih =>
    have ha := (List.nodup_cons.1 hn).1
    simp only [List.map_cons, Logger.appendKey]
    by_cases h : a = k
    · subst h
      simp only [if_true]
      congr 2
      apply List.map_congr_left
      intro b hb
      have : b ≠ a := by rintro rfl; exact ha hb
      simp [this]
    · have hk' : k ∈ ks := by
        rcases List.mem_cons.1 hk with h1 | h1
        · exact absurd h1.symm h
        · exact h1
      simp only [h, if_false, ih (List.nodup_cons.1 hn).2 hk']
      rfl

theorem appendAll_map (ks : List String) (hn : ks.Nodup) (new : String → V) :
    ∀ (rest : List String), rest.Nodup → (∀ k ∈ rest, k ∈ ks) → ∀ (g : String → List V),
    Logger.appendAll (ks.map fun k => (k, g k)) (rest.map fun k => (k, new k))
      = .ok (ks.map fun k' => (k', if k' ∈ rest then g k' ++ [new k'] else g k')) := by
  intro rest
  induction rest with
  | nil => intro _ _ g; simp [Logger.appendAll]
  | cons a rest ih =>
    intro hr hsub g
    have ha := List.nodup_cons.1 hr
    simp only [List.map_cons, Logger.appendAll]
    rw [appendKey_map ks hn g a (hsub a (by simp))]
    show Logger.appendAll _ _ = _
    rw [ih ha.2 (fun k hk => hsub k (by simp [hk])) (fun k' => if k' = a then g k' ++ [new a] else g k')]
    congr 1
    apply List.map_congr_left
    intro b _
    by_cases h : b = a
    · subst h; simp [ha.1]
    · by_cases h2 : b ∈ rest <;> simp [h, h2]

theorem store_storedOf (sum : V → V) (agg : Bool) (name : String) (sp : AttrSpec σ V)
    (hwf : sp.WF name) (h : List (σ × Nat)) (s : σ) (t : Nat) :
    Logger.store name (storedOf sum agg sp h) (Logger.aggregate sum agg (sp.fn s t))
      = .ok (storedOf sum agg sp (h ++ [(s, t)])) := by
  cases sp with
  | plain f =>
    cases agg <;> by_cases hp : name ∈ protectedNames <;>
      simp [Logger.store, storedOf, hp, Logger.aggregate, AttrSpec.fn, aggV]
  | dict ks f =>
    obtain ⟨hn, hp⟩ := hwf
    have hagg : Logger.aggregate sum agg ((AttrSpec.dict ks f).fn s t)
        = .dict (ks.map fun k => (k, aggV sum agg (f k s t))) := by
      cases agg <;> simp [Logger.aggregate, AttrSpec.fn, aggV, Function.comp_def]
    rw [hagg]
    cases h with
    | nil =>
      simp only [Logger.store, hp, if_false, storedOf, List.map_map, Function.comp_def]
      rw [appendAll_map ks hn (fun k => aggV sum agg (f k s t)) ks hn (fun _ h => h) (fun _ => [])]
      simp only [Except.map, List.nil_append]
      congr 2
      apply List.map_congr_left
      intro b hb; simp [hb]
    | cons p h =>
      simp only [Logger.store, hp, if_false, storedOf]
      rw [appendAll_map ks hn (fun k => aggV sum agg (f k s t)) ks hn (fun _ h => h)]
      simp only [Except.map, List.cons_append]
      congr 2
      apply List.map_congr_left
      intro b hb; simp [hb]

/-- The cache holds only values of the current state. -/
def Coherent (C : SimClass σ ι V) (s : SimState σ V) : Prop :=
  ∀ a v, s.cache a = some v → ∃ g, C.attr a = some g ∧ v = g s.own s.timeStep

theorem read_ok (C : SimClass σ ι V) (s : SimState σ V) (hc : Coherent C s) (a : String)
    (g : σ → Nat → Res V) (hg : C.attr a = some g) :
    ∃ s', C.read s a = .ok (g s.own s.timeStep, s') ∧ Coherent C s' ∧ s'.own = s.own ∧
      s'.timeStep = s.timeStep ∧ s'.logger = s.logger := by
  unfold SimClass.read
  rw [hg]
  by_cases hcd : C.cached a
  · simp only [hcd, if_true]
    cases hv : s.cache a with
    | some v =>
      obtain ⟨g', hg', hv'⟩ := hc a v hv
      rw [hg] at hg'
      cases hg'
      exact ⟨s, by simp [hv'], hc, rfl, rfl, rfl⟩
    | none =>
      refine ⟨_, rfl, ?_, rfl, rfl, rfl⟩
      intro b v hb
      simp only [Dict.set] at hb
      by_cases hba : b = a
      · subst hba
        simp at hb
        exact ⟨g, hg, hb.symm⟩
      · simp [hba] at hb
        exact hc b v hb
  · simp only [hcd]
    exact ⟨s, rfl, hc, rfl, rfl, rfl⟩

theorem visitLoop_ok (C : SimClass σ ι V) (sp : String → AttrSpec σ V)
    (agg : String → Bool) (h : List (σ × Nat)) :
    ∀ (names : List String), names.Nodup →
    (∀ a ∈ names, C.attr a = some (sp a).fn ∧ (sp a).WF a) →
    ∀ (s : SimState σ V) (d : Dict String (Stored V)), Coherent C s →
    (∀ a ∈ names, d a = some (storedOf C.sum (agg a) (sp a) h)) →
    ∃ s' d', C.visitLoop (names.map fun a => (a, agg a)) s d = .ok (s', d') ∧
      Coherent C s' ∧ s'.own = s.own ∧ s'.timeStep = s.timeStep ∧ s'.logger = s.logger ∧
      (∀ a ∈ names, d' a = some (storedOf C.sum (agg a) (sp a) (h ++ [(s.own, s.timeStep)]))) ∧
      (∀ a, a ∉ names → d' a = d a) := by
  intro names
  induction names with
  | nil => intro _ _ s d hc _; exact ⟨s, d, rfl, hc, rfl, rfl, rfl, by simp, by simp⟩
  | cons a names ih =>
    intro hn hsp s d hc hd
    obtain ⟨ha, hn'⟩ := List.nodup_cons.1 hn
    obtain ⟨s1, hr, hc1, ho1, ht1, hl1⟩ := read_ok C s hc a _ (hsp a (by simp)).1
    have hst := store_storedOf C.sum (agg a) a (sp a) (hsp a (by simp)).2 h s.own s.timeStep
    obtain ⟨s2, d2, hv, hc2, ho2, ht2, hl2, hd2, hdn⟩ :=
      ih hn' (fun b hb => hsp b (by simp [hb])) s1
        (d.set a (storedOf C.sum (agg a) (sp a) (h ++ [(s.own, s.timeStep)]))) hc1
        (by
          intro b hb
          have : b ≠ a := by rintro rfl; exact ha hb
          simp [Dict.set, this, hd b (by simp [hb])])
    refine ⟨s2, d2, ?_, hc2, by rw [ho2, ho1], by rw [ht2, ht1], by rw [hl2, hl1], ?_, ?_⟩
    · simp only [List.map_cons, SimClass.visitLoop]
      rw [hr]
      simp only [bind, Except.bind, hd a (by simp)]
      rw [hst]
      exact hv
    · intro b hb
      rcases List.mem_cons.1 hb with rfl | hb
      · rw [hdn b ha]; simp [Dict.set]
      · rw [hd2 b hb, ho1, ht1]
    · intro b hb
      simp only [List.mem_cons, not_or] at hb
      rw [hdn b hb.2]; simp [Dict.set, hb.1]

theorem zip_map_agg (names : List String) (hn : names.Nodup) (bs : List Bool)
    (hl : bs.length = names.length) :
    ∃ agg : String → Bool, names.zip bs = names.map fun a => (a, agg a) := by
  induction names generalizing bs with
  | nil => exact ⟨fun _ => false, by simp⟩
  | cons a names ih =>
    cases bs with
    | nil => simp at hl
    | cons b bs =>
      obtain ⟨ha, hn'⟩ := List.nodup_cons.1 hn
      obtain ⟨agg, hagg⟩ := ih hn' bs (by simpa using hl)
      refine ⟨fun x => if x = a then b else agg x, ?_⟩
      simp only [List.zip_cons_cons, List.map_cons, if_true, hagg]
      congr 1
      apply List.map_congr_left
      intro x hx
      have : x ≠ a := by rintro rfl; exact ha hx
      simp [this]

/-- A logger whose records are exactly those of the states in `h`. -/
structure LogsExactly (C : SimClass σ ι V) (sp : String → AttrSpec σ V) (names : List String)
    (agg : String → Bool) (h : List (σ × Nat)) (l : Logger V) : Prop where
  attrs : l.attrs = names
  zip : l.attrs.zip l.aggregated = names.map fun a => (a, agg a)
  len : l.length = h.length
  dic : ∀ a ∈ names, l.dic a = some (storedOf C.sum (agg a) (sp a) h)

theorem visit_ok (C : SimClass σ ι V) (sp : String → AttrSpec σ V) (names : List String)
    (hn : names.Nodup) (hsp : ∀ a ∈ names, C.attr a = some (sp a).fn ∧ (sp a).WF a)
    (agg : String → Bool) (h : List (σ × Nat)) (s : SimState σ V) (l : Logger V)
    (hl : s.logger = some l) (hx : LogsExactly C sp names agg h l) (hc : Coherent C s) :
    ∃ s' l', C.visit s = .ok s' ∧ s'.logger = some l' ∧ s'.own = s.own ∧
      s'.timeStep = s.timeStep ∧ Coherent C s' ∧
      LogsExactly C sp names agg (h ++ [(s.own, s.timeStep)]) l' := by
  obtain ⟨s1, d1, hv, hc1, ho, ht, _, hd, _⟩ :=
    visitLoop_ok C sp agg h names hn hsp s l.dic hc hx.dic
  refine ⟨{ s1 with logger := some { l with dic := d1, length := l.length + 1 } }, _, ?_, rfl, ho, ht, ?_,
    ⟨hx.attrs, hx.zip, ?_, hd⟩⟩
  · unfold SimClass.visit
    rw [hl]
    simp only [hx.zip]
    rw [hv]; rfl
  · exact hc1
  · simp [hx.len]

theorem step_ok (C : SimClass σ ι V) (hafter : ∀ i s, C.after i s = s)
    (sp : String → AttrSpec σ V) (names : List String)
    (hn : names.Nodup) (hsp : ∀ a ∈ names, C.attr a = some (sp a).fn ∧ (sp a).WF a)
    (agg : String → Bool) (h : List (σ × Nat)) (s : SimState σ V) (l : Logger V)
    (hl : s.logger = some l) (hx : LogsExactly C sp names agg h l) (i : ι) :
    ∃ s' l', C.step s i = .ok s' ∧ s'.logger = some l' ∧ s'.own = C.before i s.own ∧
      s'.timeStep = s.timeStep + 1 ∧ Coherent C s' ∧
      LogsExactly C sp names agg (h ++ [(C.before i s.own, s.timeStep + 1)]) l' := by
  obtain ⟨s1, l1, hv, hl1, ho, ht, hc, hx1⟩ := visit_ok C sp names hn hsp agg h
    { s with own := C.before i s.own, timeStep := s.timeStep + 1, cache := Dict.empty } l hl hx
    (by intro a v hv; simp [Dict.empty] at hv)
  refine ⟨{ s1 with own := C.after i s1.own }, l1, ?_, hl1, ?_, ht, ?_, hx1⟩
  · unfold SimClass.step SimClass.baseStep
    simp only [] at hv ⊢
    rw [hv]; rfl
  · simp [hafter, ho]
  · simpa [hafter] using hc

/-- own variables and time step after some steps -/
def trace (C : SimClass σ ι V) : σ → Nat → List ι → List (σ × Nat)
  | _, _, [] => []
  | s, t, i :: is => (C.before i s, t + 1) :: trace C (C.before i s) (t + 1) is

theorem run_ok (C : SimClass σ ι V) (hafter : ∀ i s, C.after i s = s)
    (sp : String → AttrSpec σ V) (names : List String)
    (hn : names.Nodup) (hsp : ∀ a ∈ names, C.attr a = some (sp a).fn ∧ (sp a).WF a)
    (agg : String → Bool) (is : List ι) :
    ∀ (h : List (σ × Nat)) (s : SimState σ V) (l : Logger V),
    s.logger = some l → LogsExactly C sp names agg h l → Coherent C s →
    ∃ s' l', C.run s is = .ok s' ∧ s'.logger = some l' ∧
      s'.own = is.foldl (fun s i => C.before i s) s.own ∧
      s'.timeStep = s.timeStep + is.length ∧ Coherent C s' ∧
      LogsExactly C sp names agg (h ++ trace C s.own s.timeStep is) l' := by
  induction is with
  | nil => intro h s l hl hx hc; exact ⟨s, l, rfl, hl, rfl, rfl, hc, by simpa [trace] using hx⟩
  | cons i is ih =>
    intro h s l hl hx _
    obtain ⟨s1, l1, h1, hl1, ho, ht, hc, hx1⟩ := step_ok C hafter sp names hn hsp agg h s l hl hx i
    obtain ⟨s2, l2, h2, hl2, ho2, ht2, hc2, hx2⟩ := ih _ s1 l1 hl1 hx1 hc
    refine ⟨s2, l2, ?_, hl2, ?_, ?_, hc2, ?_⟩
    · unfold SimClass.run; rw [h1]; exact h2
    · simp [ho2, ho]
    · simp [ht2, ht]; omega
    · rw [ho, ht] at hx2
      simpa [trace] using hx2

theorem trace_length (C : SimClass σ ι V) (s : σ) (t : Nat) (is : List ι) :
    (trace C s t is).length = is.length := by
  induction is generalizing s t with
  | nil => rfl
  | cons i is ih => simp [trace, ih]

theorem trace_get (C : SimClass σ ι V) (is : List ι) : ∀ (s : σ) (t k : Nat)
    (_ : k < is.length), (trace C s t is)[k]? =
      some ((is.take (k + 1)).foldl (fun s i => C.before i s) s, t + k + 1) := by
  induction is with
  | nil => intro s t k hk; simp at hk
  | cons i is ih =>
    intro s t k hk
    cases k with
    | zero => simp [trace]
    | succ k =>
      simp only [trace, List.getElem?_cons_succ]
      rw [ih _ _ k (by simpa using hk)]
      simp; omega

theorem create_ok {attrs : List String} {agg : AggArg} {l : Logger V}
    (h : Logger.create attrs agg = .ok l) :
    l.attrs = attrs ∧ l.aggregated.length = attrs.length ∧ l.dic = Logger.emptyDic attrs := by
  unfold Logger.create at h
  cases agg with
  | flag b => cases h; simp
  | list bs =>
    simp only at h
    split at h
    · cases h
    · cases h; simp_all

theorem mem_zip_map {names : List String} {agg : String → Bool} {a : String} {g : Bool}
    (h : (a, g) ∈ names.map fun a => (a, agg a)) : a ∈ names ∧ g = agg a := by
  simp only [List.mem_map, Prod.mk.injEq] at h
  obtain ⟨b, hb, rfl, rfl⟩ := h
  exact ⟨hb, rfl⟩

theorem ownAfter_before (C : SimClass σ ι V) (hafter : ∀ i s, C.after i s = s) (own : σ)
    (is : List ι) : ownAfter C own is = is.foldl (fun s i => C.before i s) own := by
  simp [ownAfter, hafter]

theorem construct_init_ok (C : SimClass σ ι V) (hafter : ∀ i s, C.after i s = s)
    (attrs : List String) (agg : AggArg) (l : Logger V) (hl : Logger.create attrs agg = .ok l)
    (hn : attrs.Nodup)
    (sp : String → AttrSpec σ V) (hsp : ∀ a ∈ attrs, C.attr a = some (sp a).fn ∧ (sp a).WF a)
    (own : σ) (n : Int) (hpos : 0 < n) (warm : Nat) (arg : ι) :
    ∃ s0 s1 l1 agg', C.construct own n (some l) = .ok s0 ∧ C.initialise s0 warm arg = .ok s1 ∧
      s1.logger = some l1 ∧ s1.own = ownAfter C own (List.replicate warm arg) ∧
      s1.timeStep = warm ∧ Coherent C s1 ∧
      attrs.zip l.aggregated = attrs.map (fun a => (a, agg' a)) ∧
      LogsExactly C sp attrs agg' [(ownAfter C own (List.replicate warm arg), warm)] l1 := by
  obtain ⟨ha, hb, hd⟩ := create_ok hl
  obtain ⟨ag, hag⟩ := zip_map_agg attrs hn l.aggregated hb
  have hempty : ∀ a ∈ attrs, Logger.emptyDic attrs a = some (storedOf C.sum (ag a) (sp a) []) := by
    intro a hm
    simp only [Logger.emptyDic, hm, if_true]
    cases sp a <;> simp [storedOf]
  let s0 : SimState σ V := { own := own, timeStep := 0, cache := Dict.empty, logger := some l.copy }
  have hx0 : LogsExactly C sp attrs ag [] { l.copy with length := 0 } :=
    ⟨ha, by rw [← hag]; simp [Logger.copy, ha], rfl, by
      intro a hm; simp only [Logger.copy, ha]; exact hempty a hm⟩
  -- the length of the copied logger is that of the original; run on a logger with the
  -- recorded length reset gives the same dictionaries, so work with the copy directly
  have hlen0 : l.length = 0 := by
    unfold Logger.create at hl
    cases agg with
    | flag b => cases hl; rfl
    | list bs =>
      simp only at hl
      split at hl
      · cases hl
      · cases hl; rfl
  have hx0' : LogsExactly C sp attrs ag [] l.copy := by
    have : ({ l.copy with length := 0 } : Logger V) = l.copy := by simp [Logger.copy, hlen0]
    rw [← this]; exact hx0
  obtain ⟨s1, l1, hr, hl1, ho, ht, hc, hx1⟩ := run_ok C hafter sp attrs hn hsp ag
    (List.replicate warm arg) [] s0 l.copy rfl hx0' (by intro a v hv; simp [s0, Dict.empty] at hv)
  have hxc : LogsExactly C sp attrs ag [] l1.clearAll :=
    ⟨hx1.attrs, hx1.zip, rfl, by
      intro a hm
      have := hempty a hm
      simp only [Logger.emptyDic, hm, if_true] at this
      simp only [Logger.clearAll, hx1.attrs, hm, if_true]
      exact this⟩
  obtain ⟨s2, l2, hv, hl2, ho2, ht2, hc2, hx2⟩ := visit_ok C sp attrs hn hsp ag []
    { s1 with logger := some l1.clearAll } l1.clearAll rfl hxc hc
  refine ⟨s0, s2, l2, ag, ?_, ?_, hl2, ?_, ?_, hc2, hag, ?_⟩
  · unfold SimClass.construct
    rw [if_neg (by omega)]; rfl
  · unfold SimClass.initialise
    rw [if_neg (by omega)]
    have hr' : C.run { s0 with timeStep := 0 } (List.replicate ((warm : Int).toNat) arg) = .ok s1 := by
      simpa using hr
    rw [hr']
    simp only [bind, Except.bind, hl1, Option.map]
    exact hv
  · rw [ho2, ownAfter_before C hafter]; exact ho
  · rw [ht2]; simp [ht, s0]
  · have h1 : s1.own = ownAfter C own (List.replicate warm arg) := by
      rw [ownAfter_before C hafter]; exact ho
    have h2 : s1.timeStep = warm := by simp [ht, s0]
    simpa [h1, h2] using hx2

theorem storedOf_get (sum : V → V) (agg : Bool) (sp : AttrSpec σ V) (h : List (σ × Nat))
    (hne : h ≠ []) :
    (match storedOf sum agg sp h with
      | .dict kv => Logger.Got.dict (kv.map fun p => (p.1, p.2.dropLast))
      | .list xs => .list xs.dropLast) = expectedGot sum agg sp h.dropLast := by
  cases sp with
  | plain f => simp [storedOf, expectedGot, aggV, List.map_dropLast]
  | dict ks f =>
    cases h with
    | nil => exact absurd rfl hne
    | cons p h =>
      simp [storedOf, expectedGot, aggV, Function.comp_def, List.map_dropLast]

theorem trace_dropLast (C : SimClass σ ι V) (hafter : ∀ i s, C.after i s = s) (own : σ) (t : Nat)
    (is : List ι) :
    ((own, t) :: trace C own t is).dropLast =
      (List.range is.length).map fun k => (ownAfter C own (is.take k), t + k) := by
  apply List.ext_getElem?
  intro k
  rw [List.getElem?_dropLast]
  simp only [List.length_cons, trace_length, Nat.add_sub_cancel]
  by_cases hk : k < is.length
  · rw [if_pos hk]
    simp only [List.getElem?_map, List.getElem?_range hk, Option.map_some]
    cases k with
    | zero => simp [ownAfter]
    | succ k =>
      rw [List.getElem?_cons_succ, trace_get C is own t k (by omega), ownAfter_before C hafter]
      rfl
  · rw [if_neg hk]
    rw [List.getElem?_eq_none]
    simp; omega

theorem execOps_coherent (C : SimClass σ ι V) (hafter : ∀ i s, C.after i s = s)
    (ops : List (SimOp ι)) :
    ∀ s : SimState σ V, Coherent C s → s.logger = none →
      execOps C s ops = specOps C s.own s.timeStep ops := by
  induction ops with
  | nil => intro s _ _; rfl
  | cons op ops ih =>
    intro s hc hl
    cases op with
    | step i =>
      simp only [execOps, specOps, SimClass.step, SimClass.baseStep, SimClass.visit, hl]
      show execOps C _ ops = _
      rw [ih _ (by intro a v hv; simp [Dict.empty] at hv) rfl]
    | call a =>
      simp only [execOps, specOps]
      cases hg : C.attr a with
      | none => simp [SimClass.read, hg, bind, Except.bind]
      | some g =>
        obtain ⟨s', h1, h2, h3, h4, h5⟩ := read_ok C s hc a g hg
        rw [h1]
        simp only [bind, Except.bind]
        rw [ih s' h2 (by rw [h5, hl]), h3, h4]

theorem execOps_coherent_logger (C : SimClass σ ι V) (hafter : ∀ i s, C.after i s = s)
    (names : List String) (hn : names.Nodup)
    (sp : String → AttrSpec σ V) (hsp : ∀ a ∈ names, C.attr a = some (sp a).fn ∧ (sp a).WF a)
    (agg : String → Bool) (ops : List (SimOp ι)) :
    ∀ (s : SimState σ V) (l : Logger V) h, Coherent C s → s.logger = some l →
      LogsExactly C sp names agg h l →
      execOps C s ops = specOps C s.own s.timeStep ops := by
  induction ops with
  | nil => intro s l h _ _ _; rfl
  | cons op ops ih =>
    intro s l h hc hl hx
    cases op with
    | step i =>
      obtain ⟨s', l', h1, h2, h3, h4, h5, h6⟩ := step_ok C hafter sp names hn hsp agg h s l hl hx i
      simp only [execOps, specOps]
      rw [h1]
      simp only [bind, Except.bind]
      rw [ih s' l' _ h5 h2 h6, h3, h4, hafter]
    | call a =>
      simp only [execOps, specOps]
      cases hg : C.attr a with
      | none => simp [SimClass.read, hg, bind, Except.bind]
      | some g =>
        obtain ⟨s', h1, h2, h3, h4, h5⟩ := read_ok C s hc a g hg
        rw [h1]
        simp only [bind, Except.bind]
        rw [ih s' l h h2 (by rw [h5, hl]) hx, h3, h4]

theorem create_covers {attrs : List String} {agg : AggArg} {l : Logger V}
    (h : Logger.create attrs agg = .ok l) : l.Covers := by
  obtain ⟨ha, _, hd⟩ := create_ok h
  intro a hm
  rw [hd]; simp [Logger.emptyDic, ha ▸ hm]

end Demod
