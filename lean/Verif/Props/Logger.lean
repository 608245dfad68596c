import Verif.Lemmas.Logger

/-!
# C01, C02, C05: logger and cached getters
-/

namespace Demod
variable {σ ι V : Type}

/-- **C01.** A simulator whose own variables are updated before `super().step()`,
constructed with a logger, initialised with any number `warm` of warm-up steps and
stepped with any `inputs`: nothing raises, and for every logged attribute
`logger.get(attr)` is exactly the list of the values of the getter in the states at
steps `0 … n-1` after the warm-up (summed over households when aggregated). -/
theorem C01_log_is_history (C : SimClass σ ι V) (hafter : ∀ i s, C.after i s = s)
    (attrs : List String) (agg : AggArg) (l : Logger V) (hl : Logger.create attrs agg = .ok l)
    (hn : attrs.Nodup)
    (sp : String → AttrSpec σ V) (hsp : ∀ a ∈ attrs, C.attr a = some (sp a).fn ∧ (sp a).WF a)
    (own : σ) (n : Int) (hpos : 0 < n) (warm : Nat) (arg : ι) (inputs : List ι) :
    ∃ s0 s1 s2 l2, C.construct own n (some l) = .ok s0 ∧ C.initialise s0 warm arg = .ok s1 ∧
      C.run s1 inputs = .ok s2 ∧ s2.logger = some l2 ∧ l2.length = inputs.length + 1 ∧
      s2.timeStep = warm + inputs.length ∧
      ∀ a g, (a, g) ∈ attrs.zip l.aggregated →
        l2.get (some a) = .ok (expectedGot C.sum g (sp a)
          ((List.range inputs.length).map fun k =>
            (ownAfter C (ownAfter C own (List.replicate warm arg)) (inputs.take k), warm + k))) := by
  obtain ⟨s0, s1, l1, ag, h0, h1, hl1, ho, ht, hc, hz, hx⟩ :=
    construct_init_ok C hafter attrs agg l hl hn sp hsp own n hpos warm arg
  obtain ⟨s2, l2, hr, hl2, _, ht2, _, hx2⟩ := run_ok C hafter sp attrs hn hsp ag inputs _ s1 l1 hl1 hx hc
  refine ⟨s0, s1, s2, l2, h0, h1, hr, hl2, ?_, by rw [ht2, ht], ?_⟩
  · rw [hx2.len]; simp [trace_length]
  · intro a g hag
    rw [hz] at hag
    obtain ⟨hm, rfl⟩ := mem_zip_map hag
    have hgot := storedOf_get C.sum (ag a) (sp a) (h := [(ownAfter C own (List.replicate warm arg), warm)] ++ trace C s1.own s1.timeStep inputs) (by simp)
    rw [ho, ht, List.singleton_append, trace_dropLast C hafter] at hgot
    rw [← hgot]
    have hd := hx2.dic a hm
    rw [ho, ht, List.singleton_append] at hd
    simp only [Logger.get, Logger.getNamed, hx2.attrs, hm, if_true, hd]
    split <;> simp_all

/-- **C01.** A number of households that is not positive, and a negative number of warm-up steps, raise `ValueError`; every positive number of
households is accepted, and the simulator starts at step 0. -/
theorem C01_refuses (C : SimClass σ ι V) (own : σ) (n : Int) (l : Option (Logger V)) (s : SimState σ V) (warm : Int) (arg : ι) :
    (n ≤ 0 → C.construct own n l = .error .valueError) ∧
    (0 < n → ∃ s0, C.construct own n l = .ok s0 ∧ s0.own = own ∧ s0.timeStep = 0) ∧
    (warm < 0 → C.initialise s warm arg = .error .valueError) := by
  refine ⟨fun h => ?_, fun h => ?_, fun h => ?_⟩
  · unfold SimClass.construct; rw [if_pos h]
  · refine ⟨_, by unfold SimClass.construct; rw [if_neg (by omega)], rfl, rfl⟩
  · unfold SimClass.initialise; rw [if_pos h]

/-- A counter simulator: `step(k)` adds `k` to its variable; it has a cached getter,
a dictionary getter and the time step. -/
def counterClass : SimClass Nat Nat Nat where
  attr := fun a =>
    if a = "get_count" then some fun s _ => .plain s
    else if a = "get_parts" then some fun s _ => .dict [("even", s / 2), ("rest", s - s / 2)]
    else if a = "current_time_step" then some fun _ t => .plain t
    else none
  cached := fun a => a = "get_count"
  sum := fun v => 100 * v
  before := fun i s => s + i
  after := fun _ s => s

example : counterClass.construct 5 0 none = .error .valueError := (C01_refuses counterClass 5 0 none ⟨5, 0, Dict.empty, none⟩ 0 1).1 (by decide)

def counterSpec : String → AttrSpec Nat Nat := fun a =>
  if a = "get_count" then .plain fun s _ => s
  else if a = "get_parts" then .dict ["even", "rest"] fun k s _ => if k = "even" then s / 2 else s - s / 2
  else .plain fun _ t => t

/-- The hypotheses of C01 are met by the counter with three attributes. -/
example : (["get_count", "get_parts", "current_time_step"] : List String).Nodup ∧
    (∀ a ∈ (["get_count", "get_parts", "current_time_step"] : List String),
      counterClass.attr a = some (counterSpec a).fn ∧ (counterSpec a).WF a) ∧
    (∀ i s, counterClass.after i s = s) := by
  refine ⟨by decide, ?_, fun _ _ => rfl⟩
  intro a ha
  simp only [List.mem_cons, List.not_mem_nil, or_false] at ha
  rcases ha with rfl | rfl | rfl
  · exact ⟨rfl, trivial⟩
  · exact ⟨rfl, by simp [counterSpec, AttrSpec.WF, protectedNames]⟩
  · exact ⟨rfl, trivial⟩

/-! ## C02 -/

/-- **C02 (get).** `get(name)` raises `ValueError` exactly for names that are not
logged; `get()` succeeds exactly when one attribute is logged and then is `get` of it. -/
theorem C02_get (l : Logger V) (hc : l.Covers) :
    (∀ a, l.get (some a) = .error .valueError ↔ a ∉ l.attrs) ∧
    (∀ a, (∃ v, l.get (some a) = .ok v) ↔ a ∈ l.attrs) ∧
    ((∃ v, l.get none = .ok v) ↔ l.attrs.length = 1) ∧
    (l.attrs.length ≠ 1 → l.get none = .error .valueError) ∧
    (∀ a, l.attrs = [a] → l.get none = l.get (some a)) := by
  have key : ∀ a, a ∈ l.attrs → ∃ v, l.get (some a) = .ok v := by
    intro a ha
    have := hc a ha
    obtain ⟨st, hst⟩ := Option.isSome_iff_exists.1 this
    cases st <;> simp [Logger.get, Logger.getNamed, ha, hst]
  have key2 : ∀ a, a ∉ l.attrs → l.get (some a) = .error .valueError := by
    intro a ha; simp [Logger.get, Logger.getNamed, ha]
  have one : ∀ a, l.attrs = [a] → l.get none = l.get (some a) := by
    intro a ha; simp [Logger.get, ha]
  have none1 : l.attrs.length ≠ 1 → l.get none = .error .valueError := by
    intro h
    unfold Logger.get
    cases hA : l.attrs with
    | nil => rfl
    | cons x xs =>
      cases xs with
      | nil => simp [hA] at h
      | cons y ys => rfl
  refine ⟨?_, ?_, ?_, none1, one⟩
  · intro a
    constructor
    · intro h ha; obtain ⟨v, hv⟩ := key a ha; rw [hv] at h; cases h
    · exact key2 a
  · intro a
    constructor
    · rintro ⟨v, hv⟩
      by_cases ha : a ∈ l.attrs
      · exact ha
      · rw [key2 a ha] at hv; cases hv
    · exact key a
  · constructor
    · rintro ⟨v, hv⟩
      by_cases h : l.attrs.length = 1
      · exact h
      · rw [none1 h] at hv; cases hv
    · intro h
      obtain ⟨a, ha⟩ := List.length_eq_one_iff.1 h
      rw [one a ha]; exact key a (by simp [ha])

/-- **C02 (clear).** Clearing an attribute that is not logged is a `ValueError`;
clearing a logged one empties its records and changes no other attribute; `clear()`
empties all; the recorded length becomes 0 in every case. -/
theorem C02_clear (l : Logger V) (hc : l.Covers) :
    (∀ a, a ∉ l.attrs → l.clearOne a = .error .valueError) ∧
    (∀ a, a ∈ l.attrs → ∃ l', l.clearOne a = .ok l' ∧ l'.get (some a) = .ok (.list []) ∧
      l'.length = 0 ∧ l'.attrs = l.attrs ∧ l'.aggregated = l.aggregated ∧
      ∀ b, b ≠ a → l'.get (some b) = l.get (some b)) ∧
    (∀ a, a ∈ l.attrs → l.clearAll.get (some a) = .ok (.list [])) ∧
    l.clearAll.length = 0 ∧ l.clearAll.attrs = l.attrs ∧ l.clearAll.Covers := by
  refine ⟨?_, ?_, ?_, rfl, rfl, ?_⟩
  · intro a ha; simp [Logger.clearOne, ha]
  · intro a ha
    refine ⟨{ l with dic := l.dic.set a (.list []), length := 0 }, by unfold Logger.clearOne; rw [if_pos ha], ?_, rfl, rfl, rfl, ?_⟩
    · simp [Logger.get, Logger.getNamed, ha, Dict.set]
    · intro b hb
      simp [Logger.get, Logger.getNamed, Dict.set, hb]
  · intro a ha
    simp [Logger.get, Logger.getNamed, Logger.clearAll, ha]
  · intro a ha
    have : a ∈ l.attrs := ha
    simp [Logger.clearAll, this]

/-- **C02 (clear of a list).** Clearing a list of names succeeds exactly when all are
logged (or the list is empty), and then it empties those and keeps the others. -/
theorem C02_clearList (l : Logger V) (as : List String) :
    (∀ a ∈ as, a ∈ l.attrs) →
    ∃ l', l.clearList as = .ok l' ∧ l'.attrs = l.attrs ∧ l'.length = 0 ∧
      (∀ a ∈ as, l'.get (some a) = .ok (.list [])) ∧
      (∀ b, b ∉ as → l'.get (some b) = l.get (some b)) := by
  have gen : ∀ (as : List String) (l : Logger V), (∀ a ∈ as, a ∈ l.attrs) →
      ∃ l', l.clearList as = .ok l' ∧ l'.attrs = l.attrs ∧ l'.length = 0 ∧
      ∀ b, l'.dic b = if b ∈ as then some (.list []) else l.dic b := by
    intro as
    induction as with
    | nil => intro l _; exact ⟨_, rfl, rfl, rfl, by simp⟩
    | cons a as ih =>
      intro l h
      have ha : a ∈ l.attrs := h a (by simp)
      obtain ⟨l', h1, h2, h3, h4⟩ := ih { l with dic := l.dic.set a (.list []), length := 0 }
        (fun b hb => h b (by simp [hb]))
      refine ⟨l', ?_, h2, h3, ?_⟩
      · simp only [Logger.clearList, Logger.clearOne, ha, if_true]; exact h1
      · intro b
        rw [h4 b]
        by_cases hb : b ∈ as
        · simp [hb]
        · by_cases hba : b = a <;> simp [hb, hba, Dict.set]
  intro h
  obtain ⟨l', h1, h2, h3, h4⟩ := gen as l h
  refine ⟨l', h1, h2, h3, ?_, ?_⟩
  · intro a ha
    simp [Logger.get, Logger.getNamed, h2, h a ha, h4, ha]
  · intro b hb
    simp [Logger.get, Logger.getNamed, h2, h4, hb]

/-- **C02 (unknown name in a list).** -/
theorem C02_clearList_unknown (l : Logger V) (as : List String) (a : String) (ha : a ∈ as)
    (hu : a ∉ l.attrs) : l.clearList as = .error .valueError := by
  induction as generalizing l with
  | nil => simp at ha
  | cons b as ih =>
    by_cases hb : b ∈ l.attrs
    · have hab : a ≠ b := by rintro rfl; exact hu hb
      have := ih { l with dic := l.dic.set b (.list []), length := 0 }
        (by rcases List.mem_cons.1 ha with h | h; exact absurd h hab; exact h) hu
      simp only [Logger.clearList, Logger.clearOne, hb, if_true]; exact this
    · simp [Logger.clearList, Logger.clearOne, hb, bind, Except.bind]

/-- **C02 (add).** Loggers of different recorded lengths cannot be added; otherwise
the sum logs the attributes of both, in order, each with the data it had (the right
operand wins for a shared name). -/
theorem C02_add (l o : Logger V) (hc : l.Covers) (ho : o.Covers)
    (hdl : ∀ a, (o.dic a).isSome → a ∈ o.attrs) :
    (l.length ≠ o.length → l.add o = .error .valueError) ∧
    (l.length = o.length → ∃ s, l.add o = .ok s ∧ s.attrs = l.attrs ++ o.attrs ∧
      s.aggregated = l.aggregated ++ o.aggregated ∧ s.length = l.length ∧ s.Covers ∧
      (∀ a ∈ o.attrs, s.get (some a) = o.get (some a)) ∧
      (∀ a ∈ l.attrs, a ∉ o.attrs → s.get (some a) = l.get (some a)) ∧
      (∀ a, a ∉ l.attrs → a ∉ o.attrs → s.get (some a) = .error .valueError)) := by
  refine ⟨fun h => by simp [Logger.add, h], fun h => ?_⟩
  refine ⟨{ attrs := l.attrs ++ o.attrs, aggregated := l.aggregated ++ o.aggregated, dic := l.dic.update o.dic, length := l.length }, by unfold Logger.add; rw [if_neg (by simpa using h)], rfl, rfl, rfl, ?_, ?_, ?_, ?_⟩
  · intro a ha
    simp only [Dict.update]
    cases hoa : o.dic a with
    | some v => simp
    | none =>
      simp only [List.mem_append] at ha
      rcases ha with ha | ha
      · simpa using hc a ha
      · have := ho a ha; simp [hoa] at this
  · intro a ha
    obtain ⟨v, hv⟩ := Option.isSome_iff_exists.1 (ho a ha)
    simp [Logger.get, Logger.getNamed, ha, Dict.update, hv]
  · intro a ha hna
    have hnone : o.dic a = none := by
      cases hoa : o.dic a with
      | none => rfl
      | some v => exact absurd (hdl a (by simp [hoa])) hna
    simp [Logger.get, Logger.getNamed, ha, Dict.update, hnone]
  · intro a h1 h2
    simp [Logger.get, Logger.getNamed, h1, h2]

/-- **C02 (copy, constructor).** A copy logs the same attributes, with the same
aggregation, without data; a list of aggregation flags of the wrong length is rejected;
`current_time` is never aggregated by a single flag. -/
theorem C02_copy_create (l : Logger V) (attrs : List String) (bs : List Bool) (b : Bool) :
    (l.copy.attrs = l.attrs ∧ l.copy.aggregated = l.aggregated ∧
      ∀ a ∈ l.attrs, l.copy.get (some a) = .ok (.list [])) ∧
    (bs.length ≠ attrs.length →
      (Logger.create attrs (.list bs) : Except PyErr (Logger V)) = .error .valueError) ∧
    (∃ l' : Logger V, Logger.create attrs (.flag b) = .ok l' ∧
      ∀ a g, (a, g) ∈ attrs.zip l'.aggregated → g = (b && a != "current_time")) := by
  refine ⟨⟨rfl, rfl, ?_⟩, fun h => by simp [Logger.create, h], _, rfl, ?_⟩
  · intro a ha
    simp [Logger.get, Logger.getNamed, Logger.copy, Logger.emptyDic, ha]
  · intro a g h
    simp only at h
    have hz : ∀ (xs : List String), xs.zip (xs.map fun a => if a ∈ protectedNames then false else b)
        = xs.map fun a => (a, if a ∈ protectedNames then false else b) := by
      intro xs; induction xs with
      | nil => rfl
      | cons x xs ih => simp only [List.map_cons, List.zip_cons_cons, ih]
    rw [hz] at h
    obtain ⟨c, _, hc⟩ := List.mem_map.1 h
    simp only [Prod.mk.injEq] at hc
    obtain ⟨rfl, rfl⟩ := hc
    by_cases hp : c = "current_time" <;> simp [protectedNames, hp]

/-- Non-vacuity for C02: a logger with two attributes built by the constructor. -/
example : ∃ l : Logger Nat, Logger.create ["get_power", "current_time"] (.flag true) = .ok l ∧
    l.Covers ∧ l.aggregated = [true, false] := ⟨_, rfl, create_covers (attrs := ["get_power", "current_time"]) (agg := .flag true) rfl, by decide⟩

/-- The recorded length is reset by clearing a single attribute although the others keep
their data: a logger can then be added to one that recorded a different number of
steps.  (The length check of `+` is only meaningful for loggers never partially cleared.) -/
theorem C02_length_after_partial_clear_counterexample :
    ∃ (l l' o s : Logger Nat), l.Covers ∧ l.length = 2 ∧ l.clearOne "a" = .ok l' ∧
      o.length = 0 ∧ l'.add o = .ok s ∧
      s.get (some "b") = .ok (.list [.plain 7]) ∧ s.get (some "c") = .ok (.list []) := by
  refine ⟨{ attrs := ["a", "b"], aggregated := [false, false],
            dic := fun k => if k = "a" ∨ k = "b" then some (.list [.plain 7, .plain 8]) else none,
            length := 2 }, _,
          { attrs := ["c"], aggregated := [false], dic := Logger.emptyDic ["c"], length := 0 }, _,
          ?_, rfl, rfl, rfl, rfl, ?_, ?_⟩
  · intro a ha
    simp only [List.mem_cons, List.not_mem_nil, or_false] at ha
    rcases ha with rfl | rfl <;> decide
  · decide
  · decide

/-! ## C05 -/

/-- **C05.** For a simulator that updates its variables before `super().step()`,
constructed (with or without a logger) and initialised, every interleaving of steps
and getter calls gives exactly the results of recomputing each getter from the
current state: the cache is never stale. -/
theorem C05_cache_never_stale (C : SimClass σ ι V) (hafter : ∀ i s, C.after i s = s)
    (lo : Option (Logger V)) (attrs : List String) (agg : AggArg)
    (hl : ∀ l, lo = some l → Logger.create attrs agg = .ok l)
    (hn : attrs.Nodup)
    (sp : String → AttrSpec σ V) (hsp : ∀ a ∈ attrs, C.attr a = some (sp a).fn ∧ (sp a).WF a)
    (own : σ) (n : Int) (hpos : 0 < n) (warm : Nat) (arg : ι) (ops : List (SimOp ι)) :
    ∃ s0 s1, C.construct own n lo = .ok s0 ∧ C.initialise s0 warm arg = .ok s1 ∧
      execOps C s1 ops = specOps C (ownAfter C own (List.replicate warm arg)) warm ops := by
  cases lo with
  | some l =>
    obtain ⟨s0, s1, l1, ag, h0, h1, hl1, ho, ht, hc, _, hx⟩ :=
      construct_init_ok C hafter attrs agg l (hl l rfl) hn sp hsp own n hpos warm arg
    refine ⟨s0, s1, h0, h1, ?_⟩
    rw [execOps_coherent_logger C hafter attrs hn sp hsp ag ops s1 l1 _ hc hl1 hx, ho, ht]
  | none =>
    have hrun : ∀ (is : List ι) (s : SimState σ V), s.logger = none → Coherent C s →
        ∃ s', C.run s is = .ok s' ∧ s'.logger = none ∧ s'.own = ownAfter C s.own is ∧
          s'.timeStep = s.timeStep + is.length ∧ Coherent C s' := by
      intro is
      induction is with
      | nil => intro s h1 h2; exact ⟨s, rfl, h1, rfl, rfl, h2⟩
      | cons i is ih =>
        intro s h1 _
        obtain ⟨s', g1, g2, g3, g4, g5⟩ := ih
          { s with own := C.after i (C.before i s.own), timeStep := s.timeStep + 1, cache := Dict.empty }
          h1 (by intro a v hv; simp [Dict.empty] at hv)
        refine ⟨s', ?_, g2, ?_, ?_, g5⟩
        · simp only [SimClass.run, SimClass.step, SimClass.baseStep, SimClass.visit, h1]
          simpa [bind, Except.bind, h1] using g1
        · rw [g3]; simp [ownAfter]
        · rw [g4]; simp; omega
    obtain ⟨s1, g1, g2, g3, g4, g5⟩ := hrun (List.replicate warm arg)
      { own := own, timeStep := 0, cache := Dict.empty, logger := none } rfl
      (by intro a v hv; simp [Dict.empty] at hv)
    refine ⟨{ own := own, timeStep := 0, cache := Dict.empty, logger := none }, s1, ?_, ?_, ?_⟩
    · unfold SimClass.construct; rw [if_neg (by omega)]; rfl
    · unfold SimClass.initialise
      rw [if_neg (by omega)]
      simp only [Int.toNat_natCast]
      rw [g1]
      simp only [bind, Except.bind, g2, Option.map]
      unfold SimClass.visit
      cases s1; simp_all
    · rw [execOps_coherent C hafter ops s1 g5 g2, g3, g4]; simp

/-- Non-vacuity for C05: the counter simulator, steps and calls interleaved. -/
example : ∃ s0 s1, counterClass.construct 5 1 none = .ok s0 ∧
    counterClass.initialise s0 2 10 = .ok s1 ∧
    execOps counterClass s1 [.call "get_count", .step 1, .call "get_count", .call "get_count"]
      = .ok [.plain 25, .plain 26, .plain 26] := ⟨_, _, rfl, rfl, by decide⟩

/-- The same counter with the update made *after* `super().step()` (the order of
`SparseStatesSimulator.step`, `sparse_simulators.py:289-306`). -/
def lateCounterClass : SimClass Nat Nat Nat :=
  { counterClass with before := fun _ s => s, after := fun i s => s + i }

/-- **C05, negation for late updates.** With a logger on a cached getter, a simulator
that updates its variables after `super().step()` returns the value of the previous step. -/
theorem C05_late_update_counterexample :
    ∃ (l : Logger Nat) (s0 s1 : SimState Nat Nat),
      Logger.create ["get_count"] (.flag false) = .ok l ∧
      lateCounterClass.construct 5 1 (some l) = .ok s0 ∧
      lateCounterClass.initialise s0 0 0 = .ok s1 ∧
      execOps lateCounterClass s1 [.step 1, .call "get_count"] = .ok [.plain 5] ∧
      specOps lateCounterClass 5 0 [.step 1, .call "get_count"] = .ok [.plain 6] :=
  ⟨_, _, _, rfl, rfl, rfl, by decide, by decide⟩

/-- **C05, re-initialisation.** `initialize_starting_state` does not clear the cache:
without warm-up steps a value cached earlier is still returned although the own
variables were replaced. -/
theorem C05_reinitialise_keeps_cache (C : SimClass σ ι V) (s : SimState σ V) (a : String)
    (v : Res V) (g : σ → Nat → Res V) (hg : C.attr a = some g) (hc : C.cached a = true)
    (hv : s.cache a = some v) (hl : s.logger = none) (own' : σ) (arg : ι) :
    ∃ s1, C.initialise { s with own := own' } 0 arg = .ok s1 ∧ s1.own = own' ∧
      ∃ s2, C.read s1 a = .ok (v, s2) := by
  refine ⟨{ s with own := own', timeStep := 0 }, ?_, rfl, { s with own := own', timeStep := 0 }, ?_⟩
  · cases s; simp_all [SimClass.initialise, SimClass.run, SimClass.visit, bind, Except.bind]
  · simp [SimClass.read, hg, hc, hv]

end Demod
