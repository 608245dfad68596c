import Verif.Lemmas.StoreRun

/-! # C64: the parsed data files

`outcomeAfter raw act hist r` is what the load method called by the request `r` returns or raises after the
history `hist` of loads, interrupted loads and clears of one dataset; `raw` is what parsing the raw data would give. The
steps of a load are listed by `loadSteps`: none means that nothing is parsed and nothing is written. -/

namespace Demod

/-- The full property: whatever happened before, a load gives what it would give with an empty folder; and after
a load that succeeded, a load of the same data neither parses nor writes anything, until the data are cleared. -/
def C64_full : Prop :=
  ∀ (raw : Raw) (act : Str), Consistent raw → GoodActivity act → ∀ (hist : List Event) (r : Req),
    outcomeAfter raw act hist r = outcomeAfter raw act [] r ∧
    ∀ pre q post, hist = pre ++ .load q :: post → SameRequest q r → .clear ∉ post → (∃ v, outcomeAfter raw act pre q = .ok v) →
      (loadSteps raw act (filesAfter raw act hist) r).1 = []

/-! ## What holds -/

/-- Whatever was loaded before, under whatever subgroup and kind, interrupted or not, and however often the data were
cleared, a load gives what it would give with an empty folder, as long as no file is left half written.

Missing for the full property: values the methods are not made for (`AllStorable`), unusual subgroups, the same subgroup loaded
as a dense and as a sparse matrix, and files left half written by an interruption; the counterexamples below show
that it fails for them. -/
theorem C64_outcome_partial (raw : Raw) (act : Str) (hist : List Event) (r : Req) (ha : GoodActivity act)
    (hg : ∀ q ∈ r :: hist.flatMap Event.requests, GoodRequest q) (hm : NoMixedTpm (r :: hist.flatMap Event.requests)) (hc : Consistent raw)
    (hs : AllStorable raw (r :: hist.flatMap Event.requests)) (hb : NothingBroken (filesAfter raw act hist)) :
    outcomeAfter raw act hist r = outcomeAfter raw act [] r := by
  have S : StoreSetting raw act (r :: hist.flatMap Event.requests) := ⟨ha, hg, hm, hc, hs⟩
  unfold outcomeAfter
  rw [load_outcome S _ (inv_hist raw act _ hist fun q hq => List.mem_cons_of_mem _ hq) hb r (by simp),
    load_outcome S _ (inv_hist raw act _ [] (by simp)) (by intro p; simp [filesAfter]) r (by simp)]

/-- And the value is what parsing gives, with lists turned into arrays where the method says so. Same restrictions. -/
theorem C64_value_partial (raw : Raw) (act : Str) (hist : List Event) (r : Req) (ha : GoodActivity act)
    (hg : ∀ q ∈ r :: hist.flatMap Event.requests, GoodRequest q) (hm : NoMixedTpm (r :: hist.flatMap Event.requests)) (hc : Consistent raw)
    (hs : AllStorable raw (r :: hist.flatMap Event.requests)) (hb : NothingBroken (filesAfter raw act hist)) :
    (∀ d legend, raw r = .ok (d, legend) → outcomeAfter raw act hist r = .ok (Returned r d)) ∧
    (∀ e, raw r = .error e → outcomeAfter raw act hist r = .error e) := by
  have S : StoreSetting raw act (r :: hist.flatMap Event.requests) := ⟨ha, hg, hm, hc, hs⟩
  unfold outcomeAfter
  rw [load_outcome S _ (inv_hist raw act _ hist fun q hq => List.mem_cons_of_mem _ hq) hb r (by simp)]
  constructor
  · intro d l e
    rw [e]
    exact result_returned act r d l (hs r (by simp) d l e)
  · intro e he
    rw [he]

/-- Loads that are not interrupted leave no file half written, whatever they load. -/
theorem C64_complete_partial (raw : Raw) (act : Str) (hist : List Event) (ha : GoodActivity act)
    (hg : ∀ q ∈ hist.flatMap Event.requests, GoodRequest q) (hm : NoMixedTpm (hist.flatMap Event.requests)) (hc : Consistent raw)
    (hs : AllStorable raw (hist.flatMap Event.requests)) (hcr : ∀ r n, .crash r n ∉ hist) : NothingBroken (filesAfter raw act hist) := by
  have S : StoreSetting raw act (hist.flatMap Event.requests) := ⟨ha, hg, hm, hc, hs⟩
  exact nothingBroken_hist S hist _ (inv_hist raw act _ [] (by simp)) (by intro p; simp) (fun r hr => hr) hcr

/-- Once data were loaded, loading them again parses nothing and writes nothing, whatever was loaded in between, until
the parsed data are cleared: raw data are parsed at most once. -/
theorem C64_once_partial (raw : Raw) (act : Str) (pre post : List Event) (q r : Req) (v : List PyVal × PyVal) (ha : GoodActivity act)
    (hg : ∀ x ∈ r :: (pre ++ .load q :: post).flatMap Event.requests, GoodRequest x)
    (hm : NoMixedTpm (r :: (pre ++ .load q :: post).flatMap Event.requests)) (hc : Consistent raw)
    (hs : AllStorable raw (r :: (pre ++ .load q :: post).flatMap Event.requests)) (hb : NothingBroken (filesAfter raw act pre))
    (hb' : NothingBroken (filesAfter raw act (pre ++ .load q :: post))) (hqr : SameRequest q r) (hraw : raw q = .ok v) (hcl : .clear ∉ post) :
    (loadSteps raw act (filesAfter raw act (pre ++ .load q :: post)) r).1 = [] := by
  obtain ⟨d, l⟩ := v
  have S : StoreSetting raw act (r :: (pre ++ .load q :: post).flatMap Event.requests) := ⟨ha, hg, hm, hc, hs⟩
  have hq : q ∈ r :: (pre ++ .load q :: post).flatMap Event.requests := by
    simp [List.flatMap_append, List.flatMap_cons, Event.requests]
  have hR := recipe_congr act q r (hg q hq) (hg r (by simp)) hqr
  have hraw' : raw r = .ok (d, l) := by rw [← hc q r hqr]; exact hraw
  refine load_silent S _ (inv_hist raw act _ _ fun x hx => List.mem_cons_of_mem _ hx) hb' r (by simp) d l hraw' ?_
  intro p hp
  have hp' : p ∈ dataPaths act q := by unfold dataPaths at hp ⊢; rw [hR]; exact hp
  have hi : StoreInv raw act (r :: (pre ++ .load q :: post).flatMap Event.requests) (filesAfter raw act pre) :=
    inv_hist raw act _ pre fun x hx => List.mem_cons_of_mem _ (by rw [List.flatMap_append]; exact List.mem_append_left _ hx)
  have h1 := load_present S _ hi hb q hq d l hraw p hp'
  have h2 := hist_present raw act p post hcl _ h1
  unfold filesAfter at h2 ⊢
  rw [List.foldl_append, List.foldl_cons]
  exact h2

/-- Without interruptions: the value is that of a fresh load, and it is not parsed twice. -/
theorem C64_uninterrupted_partial (raw : Raw) (act : Str) (pre post : List Event) (q r : Req) (v : List PyVal × PyVal) (ha : GoodActivity act)
    (hg : ∀ x ∈ r :: (pre ++ .load q :: post).flatMap Event.requests, GoodRequest x)
    (hm : NoMixedTpm (r :: (pre ++ .load q :: post).flatMap Event.requests)) (hc : Consistent raw)
    (hs : AllStorable raw (r :: (pre ++ .load q :: post).flatMap Event.requests)) (hcr : ∀ x n, .crash x n ∉ pre ++ .load q :: post)
    (hqr : SameRequest q r) (hraw : raw q = .ok v) (hcl : .clear ∉ post) :
    outcomeAfter raw act (pre ++ .load q :: post) r = outcomeAfter raw act [] q ∧
    (loadSteps raw act (filesAfter raw act (pre ++ .load q :: post)) r).1 = [] := by
  have sub : ∀ x ∈ pre.flatMap Event.requests, x ∈ r :: (pre ++ .load q :: post).flatMap Event.requests := fun x hx =>
    List.mem_cons_of_mem _ (by rw [List.flatMap_append]; exact List.mem_append_left _ hx)
  have hb := C64_complete_partial raw act pre ha (fun x hx => hg x (sub x hx)) (fun s t h1 h2 => hm s t (sub _ h1) (sub _ h2)) hc
    (fun x hx => hs x (sub x hx)) (fun x n hx => hcr x n (List.mem_append_left _ hx))
  have hb' := C64_complete_partial raw act (pre ++ .load q :: post) ha (fun x hx => hg x (List.mem_cons_of_mem _ hx))
    (fun s t h1 h2 => hm s t (List.mem_cons_of_mem _ h1) (List.mem_cons_of_mem _ h2)) hc (fun x hx => hs x (List.mem_cons_of_mem _ hx)) hcr
  refine ⟨?_, C64_once_partial raw act pre post q r v ha hg hm hc hs hb hb' hqr hraw hcl⟩
  rw [C64_outcome_partial raw act _ r ha hg hm hc hs hb']
  have hq : q ∈ r :: (pre ++ .load q :: post).flatMap Event.requests := by
    simp [List.flatMap_append, List.flatMap_cons, Event.requests]
  have hR := recipe_congr act q r (hg q hq) (hg r (by simp)) hqr
  have S : StoreSetting raw act (r :: (pre ++ .load q :: post).flatMap Event.requests) := ⟨ha, hg, hm, hc, hs⟩
  unfold outcomeAfter
  rw [load_outcome S _ (inv_hist raw act _ [] (by simp)) (by intro p; simp [filesAfter]) r (by simp),
    load_outcome S _ (inv_hist raw act _ [] (by simp)) (by intro p; simp [filesAfter]) q hq, hR, hc q r hqr]

/-- An interruption before anything is written does no harm: the state is that before the load. -/
theorem C64_crash_before_writing (raw : Raw) (act : Str) (hist : List Event) (r : Req) (n : Nat) (hn : n ≤ 1) :
    filesAfter raw act (hist ++ [.crash r n]) = filesAfter raw act hist := by
  unfold filesAfter
  rw [List.foldl_append]
  show ((loadSteps raw act _ r).1.take n).foldl Step.apply _ = _
  unfold loadSteps
  simp only
  have h : n = 0 ∨ n = 1 := by omega
  rcases h with rfl | rfl
  · rfl
  · split
    · rfl
    · split
      · rfl
      · split
        · rfl
        · split <;> rfl
    · rfl

/-- Clearing always repairs: the next load is that of an empty folder. -/
theorem C64_clear (raw : Raw) (act : Str) (hist : List Event) (r : Req) : outcomeAfter raw act (hist ++ [.clear]) r = outcomeAfter raw act [] r := by
  unfold outcomeAfter filesAfter
  rw [List.foldl_append]
  rfl

/-! ### Concrete cases -/

/-- A dataset with dense and sparse matrices and heating systems. -/
def demoRaw : Raw
  | .tpm _ => .ok ([.array [.float (1 / 2)], .array [.str "home".toList], .array [.float 1]], .dict [(.int 1, .str "home".toList)])
  | .sparseTpm _ => .ok ([.array [.int 0], .array [.int 1], .array [.int 2], .array [.float 1], .array [.int 3], .array [.int 4], .array [.float 5]],
      .dict [])
  | .heating .system _ => .ok ([.dict [(.str "power".toList, .list [.int 3, .int 4])]], .none)
  | .heating .buildings _ => .ok ([.dict [(.int 1, .list [.int 2])]], .none)
  | .target .duration _ => .ok ([.dict [(.int 7, .int 8)]], .none)
  | .target .consumption _ => .ok ([.dict [(.str "tv".toList, .array [.int 8])]], .none)
  | .target .switchons _ => .ok ([.dict [(.str "tv".toList, .other)]], .none)
  | .heating .thermostat _ => .ok ([.dict [(.str "t".toList, .npInt 3)]], .none)
  | _ => .error .notImplementedError

theorem demoRaw_consistent : Consistent demoRaw := by
  intro r r' h
  cases r <;> cases r' <;> simp only [SameRequest, reduceCtorEq] at h <;> first
    | rfl
    | (rename_i k _ k' _; obtain ⟨rfl, _⟩ := h; cases k <;> rfl)

/-- Two people, one person. -/
def subA : Subgroup := [("n_residents".toList, .int 2), ("weekday".toList, .list [1, 5])]
def subA' : Subgroup := [("weekday".toList, .list [1, 5]), ("n_residents".toList, .int 2)]
def subB : Subgroup := [("n_residents".toList, .int 1)]
def demoAct : Str := "4_States".toList

theorem same_swap (a b : Str) (x y : SubVal) (h : a ≠ b) : SameSubgroup [(a, x), (b, y)] [(b, y), (a, x)] := by
  intro k
  simp only [Subgroup.at, lookupA, List.find?_cons, List.find?_nil]
  by_cases h1 : a = k
  · have h2 : ¬ b = k := fun e => h (h1.trans e.symm)
    simp [h1, h2]
  · by_cases h2 : b = k <;> simp [h1, h2]

theorem same_sub : SameSubgroup subA subA' := same_swap _ _ _ _ (by decide)

theorem not_same_sub : ¬ SameSubgroup subA subB := fun h => absurd (h "weekday".toList) (by decide)

theorem demo_good : ∀ s ∈ [subA, subA', subB], Usual s ∧ ∀ q ∈ s, ¬ "activity_profiles".toList <+: q.1 := by
  intro s hs
  simp only [List.mem_cons, List.not_mem_nil, or_false] at hs
  rcases hs with rfl | rfl | rfl
  all_goals
    refine ⟨⟨by unfold DistinctKeys; decide, ?_⟩, by decide⟩
    simp only [subA, subA', subB, List.mem_cons, List.not_mem_nil, or_false, forall_eq_or_imp, forall_eq, reduceCtorEq, false_implies, implies_true,
      and_true, SubVal.list.injEq]
  · exact ⟨by decide, by decide, by rintro _ rfl; decide⟩
  · exact ⟨⟨by decide, by rintro _ rfl; decide⟩, by decide⟩
  · decide

theorem demo_setting : StoreSetting demoRaw demoAct [.tpm subA', .tpm subA, .sparseTpm subB, .heating .system subB] := by
  refine ⟨by unfold GoodActivity; decide, ?_, ?_, demoRaw_consistent, ?_⟩
  · intro q hq
    simp only [List.mem_cons, List.not_mem_nil, or_false] at hq
    rcases hq with rfl | rfl | rfl | rfl <;> exact demo_good _ (by simp [Req.subgroup])
  · intro s t hs ht h
    simp only [List.mem_cons, List.not_mem_nil, or_false, Req.tpm.injEq, Req.sparseTpm.injEq, reduceCtorEq, false_or] at hs ht
    subst ht
    rcases hs with rfl | rfl
    · exact not_same_sub fun k => (same_sub k).trans (h k)
    · exact not_same_sub h
  · intro q hq d l e
    simp only [List.mem_cons, List.not_mem_nil, or_false] at hq
    rcases hq with rfl | rfl | rfl | rfl <;>
      simp only [demoRaw, Except.ok.injEq, Prod.mk.injEq] at e <;> obtain ⟨rfl, rfl⟩ := e <;>
      simp [Storable, NumpyArray, NumpyArrayL, Dumpable, DumpableD, ArrayTree, ArrayTreeD, ArrayLike, ArrayLikeL]

/-- The hypotheses of `C64_outcome_partial` and `C64_once_partial` are met by a history with two kinds of matrices, a clear, and
an interruption. -/
example :
    let pre : List Event := [.load (.tpm subA), .clear]
    let post : List Event := [.load (.heating .system subB), .load (.sparseTpm subB), .crash (.sparseTpm subB) 1]
    let hist := pre ++ .load (.tpm subA) :: post
    let r : Req := .tpm subA'
    GoodActivity demoAct ∧ (∀ q ∈ r :: hist.flatMap Event.requests, GoodRequest q) ∧ NoMixedTpm (r :: hist.flatMap Event.requests) ∧
    Consistent demoRaw ∧ AllStorable demoRaw (r :: hist.flatMap Event.requests) ∧ NothingBroken (filesAfter demoRaw demoAct pre) ∧
    NothingBroken (filesAfter demoRaw demoAct hist) ∧ SameRequest (.tpm subA) r ∧ (∃ v, demoRaw (.tpm subA) = .ok v) ∧ .clear ∉ post := by
  intro pre post hist r
  have S := demo_setting
  have hreq : r :: hist.flatMap Event.requests =
    [.tpm subA', .tpm subA, .tpm subA, .heating .system subB, .sparseTpm subB, .sparseTpm subB] := rfl
  have hsub : ∀ q ∈ r :: hist.flatMap Event.requests, q ∈ [.tpm subA', .tpm subA, .sparseTpm subB, .heating .system subB] := by
    rw [hreq]; decide
  refine ⟨S.act, fun q hq => S.good q (hsub q hq), fun s t h1 h2 => S.mixed s t (hsub _ h1) (hsub _ h2), S.consistent, fun q hq => S.storable q (hsub q hq),
    ?_, ?_, same_sub, ⟨_, rfl⟩, by decide⟩
  · exact nothingBroken_hist S pre _ (inv_hist demoRaw demoAct _ [] (by simp)) (by intro p; simp) (by decide) (by intro r n; simp [pre])
  · have : hist = [.load (.tpm subA), .clear, .load (.tpm subA), .load (.heating .system subB), .load (.sparseTpm subB)] ++ [.crash (.sparseTpm subB) 1] := rfl
    rw [this, C64_crash_before_writing _ _ _ _ _ (le_refl 1)]
    exact nothingBroken_hist S _ _ (inv_hist demoRaw demoAct _ [] (by simp)) (by intro p; simp) (by decide) (by intro r n; simp)

/-- The value of the second load is the one parsed, and it comes from the files. -/
example : outcomeAfter demoRaw demoAct [.load (.tpm subA), .load (.heating .system subB)] (.tpm subA') =
    .ok [.array [.float (1 / 2)], .array [.str "home".toList], .array [.float 1]] := by rfl

/-! ## What fails -/

/-- An interruption while a file is being written makes every later load of these data fail, until the parsed data
are cleared. -/
theorem C64_crash_counterexample :
    outcomeAfter demoRaw demoAct [] (.heating .system subB) = .ok [.dict [(.str "power".toList, .array [.int 3, .int 4])]] ∧
    outcomeAfter demoRaw demoAct [.crash (.heating .system subB) 2] (.heating .system subB) = .error .decodeError ∧
    ∀ n, outcomeAfter demoRaw demoAct (.crash (.heating .system subB) 2 :: List.replicate n (.load (.heating .system subB))) (.heating .system subB) =
      .error .decodeError := by
  refine ⟨rfl, rfl, fun n => ?_⟩
  have key : ∀ n, filesAfter demoRaw demoAct (.crash (.heating .system subB) 2 :: List.replicate n (.load (.heating .system subB))) =
      filesAfter demoRaw demoAct [.crash (.heating .system subB) 2] := by
    intro n
    induction n with
    | zero => rfl
    | succ n ih =>
      rw [List.replicate_succ', ← List.cons_append]
      unfold filesAfter at ih ⊢
      rw [List.foldl_append, ih]
      rfl
  unfold outcomeAfter
  rw [key n]
  rfl

/-- A value that cannot be converted (here a tuple) leaves an empty json file: the first load raises
`NotImplementedError`, the next ones `JSONDecodeError`. -/
theorem C64_unstorable_counterexample :
    outcomeAfter demoRaw demoAct [] (.target .switchons subB) = .error .notImplementedError ∧
    outcomeAfter demoRaw demoAct [.load (.target .switchons subB)] (.target .switchons subB) = .error .decodeError := ⟨rfl, rfl⟩

/-- Dense and sparse matrices of the same subgroup share a file: whichever is loaded second fails or, after an
interruption, silently returns data of the other. -/
theorem C64_mixed_counterexample :
    outcomeAfter demoRaw demoAct [.load (.sparseTpm subB)] (.tpm subB) = .error .keyError ∧
    outcomeAfter demoRaw demoAct [.crash (.sparseTpm subB) 9, .load (.tpm subB)] (.sparseTpm subB) =
      .ok [.array [.int 0], .array [.int 1], .array [.int 2], .array [.float 1], .array [.float (1 / 2)], .array [.str "home".toList],
        .array [.float 1]] := ⟨rfl, rfl⟩

/-- What is loaded the first time and the second time may differ: integer keys become strings, arrays become lists; and a
numpy integer among heating data makes the first load fail and the second succeed. -/
theorem C64_differs_counterexample :
    outcomeAfter demoRaw demoAct [] (.target .duration subB) = .ok [.dict [(.int 7, .int 8)]] ∧
    outcomeAfter demoRaw demoAct [.load (.target .duration subB)] (.target .duration subB) = .ok [.dict [(.str "7".toList, .int 8)]] ∧
    outcomeAfter demoRaw demoAct [] (.target .consumption subB) = .ok [.dict [(.str "tv".toList, .array [.int 8])]] ∧
    outcomeAfter demoRaw demoAct [.load (.target .consumption subB)] (.target .consumption subB) = .ok [.dict [(.str "tv".toList, .list [.int 8])]] ∧
    outcomeAfter demoRaw demoAct [] (.heating .thermostat subB) = .error .notImplementedError ∧
    outcomeAfter demoRaw demoAct [.load (.heating .thermostat subB)] (.heating .thermostat subB) = .ok [.dict [(.str "t".toList, .int 3)]] ∧
    outcomeAfter demoRaw demoAct [] (.heating .buildings subB) = .ok [.dict [(.int 1, .array [.int 2])]] ∧
    outcomeAfter demoRaw demoAct [.load (.heating .buildings subB)] (.heating .buildings subB) = .ok [.dict [(.str "1".toList, .array [.int 2])]] :=
  ⟨rfl, rfl, rfl, rfl, rfl, rfl, rfl, rfl⟩

theorem plainArrayL_object (pre post : List PyVal) (x : PyVal) (hx : x = .none ∨ x = .other) :
    plainArrayL (asArrayL (pre ++ x :: post)) = false := by
  induction pre with
  | nil => rcases hx with rfl | rfl <;> simp [asArrayL, asArray, plainArrayL, plainArray]
  | cons y pre ih => simp [asArrayL, plainArrayL, ih]

/-- Bulbs with a missing value are an array of objects: the first load gives them, every later one is refused by
numpy with a `ValueError`, for every dataset, subgroup and place of the missing value. -/
theorem C64_objects_counterexample (raw : Raw) (act : Str) (s : Subgroup) (pre post : List PyVal) (x legend : PyVal)
    (hx : x = .none ∨ x = .other) (h : raw (.bulbsConfig s) = .ok ([.array (pre ++ x :: post)], legend)) :
    outcomeAfter raw act [] (.bulbsConfig s) = .ok [.array (pre ++ x :: post)] ∧
    outcomeAfter raw act [.load (.bulbsConfig s)] (.bulbsConfig s) = .error .valueError := by
  have hp := plainArrayL_object pre post x hx
  constructor
  · simp [outcomeAfter, filesAfter, loadSteps, recipe, bulbsConfigRecipe, readFiles, readFile, bind, Except.bind, h, arity,
      Recipe.writes, writeFiles]
  · simp [outcomeAfter, filesAfter, Event.apply, loadSteps, recipe, bulbsConfigRecipe, readFiles, readFile, bind, Except.bind, h, arity,
      Recipe.writes, writeFiles, Step.apply, asArray, plainArray, hp]

/-- A parser that gives something else than a dictionary where the method stores one: `TypeError`, and nothing is written. -/
theorem C64_dictionaries_only (raw : Raw) (act : Str) (r : Req) (v legend : PyVal) (hv : ∀ d, v ≠ .dict d)
    (hr : (∃ s, r = .ownership s) ∨ r = .historical ∨ (∃ s, r = .activityProfiles s) ∨ ∃ k s, r = .stat k s)
    (h : raw r = .ok ([v], legend)) :
    outcomeAfter raw act [] r = .error .typeError ∧ filesAfter raw act [.load r] = filesAfter raw act [] := by
  have hk : v.kwargs = .error .typeError := by
    cases v <;> first | rfl | exact absurd rfl (hv _)
  rcases hr with ⟨s, rfl⟩ | rfl | ⟨s, rfl⟩ | ⟨k, s, rfl⟩ <;>
    exact ⟨by simp [outcomeAfter, filesAfter, loadSteps, recipe, npzRecipe, readFiles, readFile, bind, Except.bind, h, hk],
      by simp [filesAfter, Event.apply, loadSteps, recipe, npzRecipe, readFiles, readFile, bind, Except.bind, h, hk, Step.apply]⟩

example : ∃ raw : Raw, outcomeAfter raw demoAct [] .historical = .error .typeError ∧
    outcomeAfter raw demoAct [.load (.bulbsConfig subB)] (.bulbsConfig subB) = .error .valueError :=
  ⟨fun r => match r with
    | .historical => .ok ([.list [.int 1]], .none)
    | _ => .ok ([.array ([.float 40] ++ .none :: [.float 60])], .none),
   (C64_dictionaries_only _ _ _ (.list [.int 1]) .none (by intro d; simp) (.inr (.inl rfl)) rfl).1,
   (C64_objects_counterexample _ _ _ [.float 40] [.float 60] .none .none (.inl rfl) rfl).2⟩

theorem C64_full_fails : ¬ C64_full := by
  intro h
  have h1 := (h demoRaw demoAct demoRaw_consistent demo_setting.act [.crash (.heating .system subB) 2] (.heating .system subB)).1
  rw [C64_crash_counterexample.1, C64_crash_counterexample.2.1] at h1
  cases h1

end Demod
