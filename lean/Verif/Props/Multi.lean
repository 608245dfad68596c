import Verif.Model.Multi

/-!
# C04, C08: multi-simulators
-/

namespace Demod
variable {σ κ υ β ν : Type}

/-- Arguments of a multi-simulator made by concatenating, for each argument, the blocks of
the sub-simulators. All blocks have the same positional/keyword structure: `npos` positional
arguments and the keywords `keys`; `pos i j` is the block of sub-simulator `i` for the
`j`-th positional argument and `kw i k` its block for keyword `k`. -/
def joinArgs (nSubs npos : Nat) (keys : List String) (pos : Nat → Nat → List β)
    (kw : Nat → String → List β) : StepArgs β :=
  { args := (List.range npos).map fun j => ((List.range nSubs).map fun i => pos i j).flatten
    kwargs := keys.map fun k => (k, ((List.range nSubs).map fun i => kw i k).flatten) }

/-- The arguments of sub-simulator `i` alone. -/
def blockArgs (npos : Nat) (keys : List String) (pos : Nat → Nat → List β)
    (kw : Nat → String → List β) (i : Nat) : StepArgs β :=
  { args := (List.range npos).map fun j => pos i j
    kwargs := keys.map fun k => (k, kw i k) }

/-- Total number of households before sub-simulator `i`. -/
def offset (ns : List Nat) (i : Nat) : Nat := (ns.take i).sum

theorem slice_flatten (ns : List Nat) (b : Nat → List β)
    (hb : ∀ i (h : i < ns.length), (b i).length = ns[i]) (i : Nat) (hi : i < ns.length) :
    slice (offset ns i) ns[i] ((List.range ns.length).map b).flatten = b i := by
  have hlen : ∀ k, k ≤ ns.length → (((List.range ns.length).map b).take k).flatten.length = offset ns k := by
    intro k hk
    rw [List.length_flatten, offset, ← List.map_take, List.map_map]
    congr 1
    apply List.ext_getElem
    · simp
    · intro j h1 h2
      simp at h1
      simp only [List.getElem_map, List.getElem_take, List.getElem_range, Function.comp]
      rw [hb j (by omega)]
  unfold slice
  have hsplit : ((List.range ns.length).map b)
      = ((List.range ns.length).map b).take i ++ (b i :: ((List.range ns.length).map b).drop (i + 1)) := by
    conv => lhs; rw [← List.take_append_drop i ((List.range ns.length).map b)]
    congr 1
    rw [List.drop_eq_getElem_cons (by simpa using hi)]
    simp
  rw [hsplit, List.flatten_append, List.drop_append]
  have hl := hlen i (by omega)
  rw [hl]
  simp only [Nat.sub_self, List.drop_zero]
  rw [List.drop_eq_nil_of_le (by omega)]
  simp only [List.nil_append, List.flatten_cons]
  rw [List.take_append_of_le_length (by rw [hb i hi]; omega)]
  rw [List.take_of_length_le (by rw [hb i hi]; omega)]

theorem StepArgs_slice_join (ns : List Nat) (npos : Nat) (keys : List String)
    (pos : Nat → Nat → List β) (kw : Nat → String → List β)
    (hpos : ∀ i (h : i < ns.length) j, (pos i j).length = ns[i])
    (hkw : ∀ i (h : i < ns.length) k, (kw i k).length = ns[i]) (i : Nat) (hi : i < ns.length) :
    (joinArgs ns.length npos keys pos kw).slice (offset ns i) ns[i] = blockArgs npos keys pos kw i := by
  simp only [StepArgs.slice, joinArgs, blockArgs, List.map_map]
  congr 1
  · apply List.map_congr_left
    intro j _
    exact slice_flatten ns (fun i => pos i j) (fun i h => hpos i h j) i hi
  · apply List.map_congr_left
    intro k _
    simp only [Function.comp, Prod.mk.injEq, true_and]
    exact slice_flatten ns (fun i => kw i k) (fun i h => hkw i h k) i hi

theorem multiStepFrom_get (f : σ → StepArgs β → Except PyErr σ) (a : StepArgs β)
    (ss : List (Sub σ κ υ)) : ∀ (off : Nat) (ss' : List (Sub σ κ υ)),
    multiStepFrom f a off ss = .ok ss' →
    ss'.length = ss.length ∧ ∀ i (h : i < ss.length) (h' : i < ss'.length),
      ss'[i].n = ss[i].n ∧ ss'[i].subgroup = ss[i].subgroup ∧
      f ss[i].state (a.slice (off + offset (ss.map fun s => s.n) i) ss[i].n) = .ok ss'[i].state := by
  induction ss with
  | nil => intro off ss' h; cases h; simp
  | cons s ss ih =>
    intro off ss' h
    unfold multiStepFrom at h
    cases h1 : f s.state (a.slice off s.n) with
    | error e => rw [h1] at h; cases h
    | ok st =>
      rw [h1] at h
      simp only [bind, Except.bind] at h
      cases h2 : multiStepFrom f a (off + s.n) ss with
      | error e => rw [h2] at h; cases h
      | ok rest =>
        rw [h2] at h
        cases h
        obtain ⟨hl, hget⟩ := ih _ _ h2
        refine ⟨by simp [hl], ?_⟩
        intro i hi hi'
        cases i with
        | zero => simpa [offset] using h1
        | succ i =>
          have := hget i (by simpa using hi) (by simpa using hi')
          simp only [List.getElem_cons_succ, List.map_cons]
          refine ⟨this.1, this.2.1, ?_⟩
          rw [← this.2.2]
          congr 2
          simp [offset]; omega

theorem multiStepFrom_ok (f : σ → StepArgs β → Except PyErr σ) (a : StepArgs β)
    (ss : List (Sub σ κ υ)) : ∀ (off : Nat) (st : Nat → σ),
    (∀ i (h : i < ss.length),
      f ss[i].state (a.slice (off + offset (ss.map fun s => s.n) i) ss[i].n) = .ok (st i)) →
    multiStepFrom f a off ss = .ok (ss.mapIdx fun i s => { s with state := st i }) := by
  induction ss with
  | nil => intro off st _; simp [multiStepFrom]
  | cons s ss ih =>
    intro off st h
    have h0 := h 0 (by simp)
    simp only [List.getElem_cons_zero, offset, List.take_zero, List.sum_nil, Nat.add_zero] at h0
    have hr := ih (off + s.n) (fun i => st (i + 1)) (by
      intro i hi
      have := h (i + 1) (by simpa using hi)
      simp only [List.getElem_cons_succ, List.map_cons] at this
      rw [← this]
      congr 2
      simp [offset]; omega)
    unfold multiStepFrom
    rw [h0]
    simp only [bind, Except.bind]
    rw [hr]
    simp [List.mapIdx_cons]

/-- **C04 (one step).** If every sub-simulator steps successfully on its own block of
inputs, then the multi-simulator step on the concatenated inputs succeeds, and every
sub-simulator ends in the state it reaches alone on its block.  The arguments may be any
number of positional and keyword arguments. -/
theorem C04_step (f : σ → StepArgs β → Except PyErr σ) (m : Multi σ κ υ ν) (npos : Nat)
    (keys : List String) (pos : Nat → Nat → List β) (kw : Nat → String → List β)
    (hpos : ∀ i (h : i < m.subs.length) j, (pos i j).length = m.subs[i].n)
    (hkw : ∀ i (h : i < m.subs.length) k, (kw i k).length = m.subs[i].n)
    (st : Nat → σ)
    (hst : ∀ i (h : i < m.subs.length), f m.subs[i].state (blockArgs npos keys pos kw i) = .ok (st i)) :
    m.step f (joinArgs m.subs.length npos keys pos kw)
      = .ok { m with subs := m.subs.mapIdx fun i s => { s with state := st i }, cache := Dict.empty } := by
  have := multiStepFrom_ok f (joinArgs m.subs.length npos keys pos kw) m.subs 0 st (by
    intro i hi
    rw [← hst i hi]
    have hs := StepArgs_slice_join (m.subs.map fun s => s.n) npos keys pos kw
      (by intro i h j; simpa using hpos i (by simpa using h) j)
      (by intro i h k; simpa using hkw i (by simpa using h) k) i (by simpa using hi)
    simp only [List.length_map, List.getElem_map] at hs
    rw [Nat.zero_add, hs])
  unfold Multi.step
  rw [this]; rfl

/-- A run of the multi-simulator. -/
def Multi.run (f : σ → StepArgs β → Except PyErr σ) (m : Multi σ κ υ ν) :
    List (StepArgs β) → Except PyErr (Multi σ κ υ ν)
  | [] => .ok m
  | a :: as => do
    let m' ← m.step f a
    m'.run f as

/-- A sub-simulator run on its own. -/
def runAlone (f : σ → StepArgs β → Except PyErr σ) : σ → List (StepArgs β) → Except PyErr σ
  | s, [] => .ok s
  | s, a :: as => do
    let s' ← f s a
    runAlone f s' as

/-- **C04 (runs).** For inputs given per step `t` as blocks `pos t i j`, `kw t i k`: if every
sub-simulator runs alone on its own blocks and ends in `fin i`, then the multi-simulator run
on the concatenated inputs succeeds and ends with exactly these states. -/
theorem C04_run (f : σ → StepArgs β → Except PyErr σ) (npos : Nat) (keys : List String) :
    ∀ (ins : List ((Nat → Nat → List β) × (Nat → String → List β))) (m : Multi σ κ υ ν) (fin : Nat → σ),
    (∀ p ∈ ins, ∀ i (h : i < m.subs.length), (∀ j, (p.1 i j).length = m.subs[i].n) ∧
      ∀ k, (p.2 i k).length = m.subs[i].n) →
    (∀ i (h : i < m.subs.length),
      runAlone f m.subs[i].state (ins.map fun p => blockArgs npos keys p.1 p.2 i) = .ok (fin i)) →
    ∃ m', m.run f (ins.map fun p => joinArgs m.subs.length npos keys p.1 p.2) = .ok m' ∧
      m'.nHouseholds = m.nHouseholds ∧
      m'.subs = m.subs.mapIdx fun i s => { s with state := fin i } := by
  intro ins
  induction ins with
  | nil =>
    intro m fin _ hfin
    refine ⟨m, rfl, rfl, ?_⟩
    apply List.ext_getElem (by simp)
    intro i h1 h2
    have := Except.ok.inj (hfin i h1)
    simp only [List.getElem_mapIdx, ← this]
  | cons p ins ih =>
    intro m fin hlen hfin
    have hex : ∀ i (h : i < m.subs.length), ∃ s', f m.subs[i].state (blockArgs npos keys p.1 p.2 i) = .ok s' ∧
        runAlone f s' (ins.map fun p => blockArgs npos keys p.1 p.2 i) = .ok (fin i) := by
      intro i h
      have := hfin i h
      simp only [List.map_cons, runAlone] at this
      cases hf : f m.subs[i].state (blockArgs npos keys p.1 p.2 i) with
      | error e => rw [hf] at this; cases this
      | ok s' => rw [hf] at this; exact ⟨s', rfl, this⟩
    let st : Nat → σ := fun i => if h : i < m.subs.length then Classical.choose (hex i h) else fin i
    have hst : ∀ i (h : i < m.subs.length), f m.subs[i].state (blockArgs npos keys p.1 p.2 i) = .ok (st i) ∧
        runAlone f (st i) (ins.map fun p => blockArgs npos keys p.1 p.2 i) = .ok (fin i) := by
      intro i h
      simp only [st, h, dite_true]
      exact Classical.choose_spec (hex i h)
    have hstep := C04_step f m npos keys p.1 p.2 (fun i h => (hlen p (by simp) i h).1)
      (fun i h => (hlen p (by simp) i h).2) st (fun i h => (hst i h).1)
    obtain ⟨m', h1, h2, h3⟩ := ih
      { m with subs := m.subs.mapIdx fun i s => { s with state := st i }, cache := Dict.empty } fin
      (by
        intro q hq i h
        have h' : i < m.subs.length := by simpa using h
        simpa using hlen q (by simp [hq]) i h')
      (by
        intro i h
        have h' : i < m.subs.length := by simpa using h
        simpa using (hst i h').2)
    refine ⟨m', ?_, h2, ?_⟩
    · simp only [List.map_cons, Multi.run]
      rw [hstep]
      simpa [bind, Except.bind] using h1
    · rw [h3]
      simp [List.mapIdx_mapIdx, Function.comp_def]

/-- **C04 (converse).** If the multi-simulator step succeeds, every sub-simulator made exactly
the step on its own block (so an exception of one sub-simulator is never swallowed). -/
theorem C04_step_converse (f : σ → StepArgs β → Except PyErr σ) (m m' : Multi σ κ υ ν) (npos : Nat)
    (keys : List String) (pos : Nat → Nat → List β) (kw : Nat → String → List β)
    (hpos : ∀ i (h : i < m.subs.length) j, (pos i j).length = m.subs[i].n)
    (hkw : ∀ i (h : i < m.subs.length) k, (kw i k).length = m.subs[i].n)
    (h : m.step f (joinArgs m.subs.length npos keys pos kw) = .ok m') :
    m'.subs.length = m.subs.length ∧ ∀ i (h : i < m.subs.length) (h' : i < m'.subs.length),
      f m.subs[i].state (blockArgs npos keys pos kw i) = .ok m'.subs[i].state := by
  unfold Multi.step at h
  cases hm : multiStepFrom f (joinArgs m.subs.length npos keys pos kw) 0 m.subs with
  | error e => rw [hm] at h; cases h
  | ok subs =>
    rw [hm] at h
    cases h
    obtain ⟨hl, hget⟩ := multiStepFrom_get f _ m.subs 0 subs hm
    refine ⟨hl, ?_⟩
    intro i hi hi'
    have hs := StepArgs_slice_join (m.subs.map fun s => s.n) npos keys pos kw
      (by intro i h j; simpa using hpos i (by simpa using h) j)
      (by intro i h k; simpa using hkw i (by simpa using h) k) i (by simpa using hi)
    simp only [List.length_map, List.getElem_map] at hs
    have := (hget i hi hi').2.2
    rw [Nat.zero_add, hs] at this
    exact this

/-- **C04 (number of households).** The multi-simulator has as many households as its
sub-simulators together, and there must be at least one. -/
theorem C04_create (subs : List (Sub σ κ υ)) :
    ((Multi.create subs : Except PyErr (Multi σ κ υ ν)) = .error .valueError ↔ ∀ s ∈ subs, s.n = 0) ∧
    ∀ m : Multi σ κ υ ν, Multi.create subs = .ok m →
      m.nHouseholds = (subs.map fun s => s.n).sum ∧ m.subs = subs := by
  have hz : (subs.map fun s => s.n).sum = 0 ↔ ∀ s ∈ subs, s.n = 0 := by
    induction subs with
    | nil => simp
    | cons s ss ih => simp [ih]
  constructor
  · rw [← hz]
    unfold Multi.create
    by_cases h : (subs.map fun s => s.n).sum = 0 <;> simp [h]
  · intro m h
    unfold Multi.create at h
    simp only at h
    split at h
    · cases h
    · cases h; exact ⟨rfl, rfl⟩

/-- Interactions with a multi-simulator. -/
inductive MultiOp (β : Type) where
  | step (a : StepArgs β)
  | get (name : String)

/-- Executing interactions; getter results are dropped (the cache they fill is kept). -/
def Multi.exec (f : σ → StepArgs β → Except PyErr σ) (g : String → σ → List ν) (m : Multi σ κ υ ν) :
    List (MultiOp β) → Except PyErr (Multi σ κ υ ν)
  | [] => .ok m
  | .step a :: ops => do
    let m' ← m.step f a
    m'.exec f g ops
  | .get name :: ops => (m.get g name).2.exec f g ops

/-- **C04 (getters).** After any interleaving of steps and getter calls on a new
multi-simulator, every collected getter returns the concatenation, in order, of the values of
the sub-simulators in their current states; the household index `offset i + j` is the `j`-th
household of the `i`-th sub-simulator. -/
theorem C04_getters (f : σ → StepArgs β → Except PyErr σ) (g : String → σ → List ν)
    (subs : List (Sub σ κ υ)) (m0 m : Multi σ κ υ ν) (h0 : Multi.create subs = .ok m0)
    (ops : List (MultiOp β)) (hm : m0.exec f g ops = .ok m) (name : String) :
    (m.get g name).1 = (m.subs.map fun s => g name s.state).flatten ∧
    ((∀ s ∈ m.subs, (g name s.state).length = s.n) →
      ∀ i (h : i < m.subs.length) j (hj : j < (g name m.subs[i].state).length),
        (m.getHousehold g name (offset (m.subs.map fun s => s.n) i + j)).1
          = .ok ((g name m.subs[i].state)[j])) := by
  have hinv : ∀ (ops : List (MultiOp β)) (m0 m : Multi σ κ υ ν),
      (∀ a v, m0.cache a = some v → v = (m0.subs.map fun s => g a s.state).flatten) →
      m0.exec f g ops = .ok m →
      ∀ a v, m.cache a = some v → v = (m.subs.map fun s => g a s.state).flatten := by
    intro ops
    induction ops with
    | nil => intro m0 m hc h; cases h; exact hc
    | cons op ops ih =>
      intro m0 m hc h
      cases op with
      | step a =>
        unfold Multi.exec at h
        cases hs : m0.step f a with
        | error e => rw [hs] at h; cases h
        | ok m1 =>
          rw [hs] at h
          refine ih m1 m ?_ h
          intro b v hv
          unfold Multi.step at hs
          cases hms : multiStepFrom f a 0 m0.subs with
          | error e => rw [hms] at hs; cases hs
          | ok ss => rw [hms] at hs; cases hs; simp [Dict.empty] at hv
      | get b =>
        unfold Multi.exec at h
        refine ih _ m ?_ h
        intro c v hv
        unfold Multi.get at hv ⊢
        cases hb : m0.cache b with
        | some w => rw [hb] at hv; simp only at hv ⊢; exact hc c v hv
        | none =>
          rw [hb] at hv
          simp only [Dict.set] at hv ⊢
          by_cases hcb : c = b
          · subst hcb; simp at hv; exact hv.symm
          · simp [hcb] at hv; exact hc c v hv
  have hcoh := hinv ops m0 m (by
    intro a v hv
    unfold Multi.create at h0
    simp only at h0
    split at h0
    · cases h0
    · cases h0; simp [Dict.empty] at hv) hm
  have hget : (m.get g name).1 = (m.subs.map fun s => g name s.state).flatten := by
    unfold Multi.get
    cases hc : m.cache name with
    | some v => exact hcoh name v hc
    | none => rfl
  refine ⟨hget, ?_⟩
  intro hlen i hi j hj'
  have hj : j < m.subs[i].n := by rw [← hlen _ (List.getElem_mem hi)]; exact hj'
  have hidx : ((m.subs.map fun s => g name s.state).flatten)[offset (m.subs.map fun s => s.n) i + j]?
      = some ((g name m.subs[i].state)[j]) := by
    have hs := slice_flatten (m.subs.map fun s => s.n)
      (fun k => if h : k < m.subs.length then g name m.subs[k].state else [])
      (by
        intro k hk
        have hk' : k < m.subs.length := by simpa using hk
        simp only [hk', dite_true, List.getElem_map]
        exact hlen _ (List.getElem_mem _)) i (by simpa using hi)
    have hmap : (List.range (m.subs.map fun s => s.n).length).map
        (fun k => if h : k < m.subs.length then g name m.subs[k].state else [])
        = m.subs.map fun s => g name s.state := by
      apply List.ext_getElem (by simp)
      intro k h1 h2
      have hk' : k < m.subs.length := by simpa using h1
      simp [hk']
    rw [hmap] at hs
    simp only [hi, dite_true, List.getElem_map] at hs
    have : (slice (offset (m.subs.map fun s => s.n) i) m.subs[i].n
        ((m.subs.map fun s => g name s.state).flatten))[j]? = some ((g name m.subs[i].state)[j]) := by
      rw [hs]; simp
    unfold slice at this
    rw [List.getElem?_take_of_lt hj, List.getElem?_drop] at this
    exact this
  unfold Multi.getHousehold
  simp only [hget, hidx]

/-- Non-vacuity for C04: two sub-simulators (2 and 1 households) that add their input. -/
example :
    let f : List Nat → StepArgs Nat → Except PyErr (List Nat) := fun s a =>
      match a.args with
      | [x] => .ok (List.zipWith (· + ·) s x)
      | _ => .error .typeError
    let subs : List (Sub (List Nat) String Nat) :=
      [{ n := 2, subgroup := fun _ => none, state := [10, 20] }, { n := 1, subgroup := fun _ => none, state := [30] }]
    ∃ m0 m1 : Multi (List Nat) String Nat Nat, Multi.create subs = .ok m0 ∧
      m0.step f { args := [[1, 2, 3]], kwargs := [] } = .ok m1 ∧
      (m1.get (fun _ s => s) "get_x").1 = [11, 22, 33] ∧
      f [10, 20] (blockArgs 1 [] (fun i _ => if i = 0 then [1, 2] else [3]) (fun _ _ => []) 0) = .ok [11, 22] := by
  refine ⟨_, _, rfl, rfl, by decide, by decide⟩

/-! ## C08 -/

/-- A sub-simulator fits a request if every requested key is present with the requested value. -/
def Fits (s : Sub σ κ υ) (request : List (κ × υ)) : Prop :=
  ∀ p ∈ request, s.subgroup p.1 = some p.2

/-- **C08.** The mask has one entry per household; household `j` of sub-simulator `i` is
selected exactly if its sub-simulator fits the request.  (An empty request selects everyone.) -/
theorem C08_mask [DecidableEq υ] (subs : List (Sub σ κ υ)) (m : Multi σ κ υ ν)
    (hm : Multi.create subs = .ok m) (request : List (κ × υ)) :
    (m.maskSubgroup request).length = m.nHouseholds ∧
    (∀ i (h : i < m.subs.length) j, j < m.subs[i].n →
      ∃ b, (m.maskSubgroup request)[offset (m.subs.map fun s => s.n) i + j]? = some b ∧
        (b = true ↔ Fits m.subs[i] request)) ∧
    (request = [] → ∀ b ∈ m.maskSubgroup request, b = true) := by
  let fit : Sub σ κ υ → Bool := fun s => request.all fun p =>
    match s.subgroup p.1 with
    | some v => v == p.2
    | none => false
  have hfit : ∀ s, fit s = true ↔ Fits s request := by
    intro s
    simp only [fit, List.all_eq_true, Fits]
    constructor
    · intro h p hp
      have := h p hp
      split at this
      · rename_i v hv; rw [hv]; simp at this; rw [this]
      · cases this
    · intro h p hp; rw [h p hp]; simp
  have heq : m.maskSubgroup request = (m.subs.map fun s => List.replicate s.n (fit s)).flatten := by
    unfold Multi.maskSubgroup
    show (List.map _ ((m.subs.map fit).zip m.subs)).flatten = _
    congr 1
    generalize m.subs = ss
    induction ss with
    | nil => rfl
    | cons s ss ih =>
      simp only [List.map_cons, List.zip_cons_cons, ih]
      congr 1
      cases fit s <;> rfl
  obtain ⟨hn, hs⟩ := (C04_create (ν := ν) subs).2 m hm
  refine ⟨?_, ?_, ?_⟩
  · rw [heq, List.length_flatten, hn, hs, List.map_map]
    congr 1
    apply List.map_congr_left
    intro s _; simp
  · intro i hi j hj
    refine ⟨fit m.subs[i], ?_, hfit _⟩
    rw [heq]
    have hs := slice_flatten (m.subs.map fun s => s.n)
      (fun k => if h : k < m.subs.length then List.replicate m.subs[k].n (fit m.subs[k]) else [])
      (by
        intro k hk
        have hk' : k < m.subs.length := by simpa using hk
        simp [hk']) i (by simpa using hi)
    have hmap : (List.range (m.subs.map fun s => s.n).length).map
        (fun k => if h : k < m.subs.length then List.replicate m.subs[k].n (fit m.subs[k]) else [])
        = m.subs.map fun s => List.replicate s.n (fit s) := by
      apply List.ext_getElem (by simp)
      intro k h1 h2
      have hk' : k < m.subs.length := by simpa using h1
      simp [hk']
    rw [hmap] at hs
    simp only [hi, dite_true, List.getElem_map] at hs
    have : (slice (offset (m.subs.map fun s => s.n) i) m.subs[i].n
        ((m.subs.map fun s => List.replicate s.n (fit s)).flatten))[j]? = some (fit m.subs[i]) := by
      rw [hs]; simp [hj]
    unfold slice at this
    rw [List.getElem?_take_of_lt hj, List.getElem?_drop] at this
    exact this
  · intro hr b hb
    rw [heq] at hb
    simp only [List.mem_flatten, List.mem_map] at hb
    obtain ⟨l, ⟨s, _, rfl⟩, hb⟩ := hb
    have := (List.mem_replicate.1 hb).2
    rw [this]
    exact (hfit s).2 (by intro p hp; rw [hr] at hp; simp at hp)

/-- Non-vacuity for C08. -/
example :
    let subs : List (Sub Unit String Nat) :=
      [{ n := 2, subgroup := fun k => if k = "n_residents" then some 2 else none, state := () },
       { n := 3, subgroup := fun k => if k = "n_residents" then some 4 else none, state := () }]
    ∃ m : Multi Unit String Nat Nat, Multi.create subs = .ok m ∧
      m.maskSubgroup [("n_residents", 4)] = [false, false, true, true, true] := ⟨_, rfl, by decide⟩

end Demod
