import Verif.Spec.Store
import Verif.Lemmas.Profiles
import Verif.Lemmas.Subgroup

/-! # Lemmas on stored values -/

namespace Demod

/-! ## Json values -/

theorem foldl_putItem (d : List (PyKey × PyVal)) : ∀ acc : List (PyKey × PyVal), ((acc ++ d).map (·.1)).Nodup →
    d.foldl putItem acc = acc ++ d := by
  induction d with
  | nil => intro acc _; simp
  | cons q d ih =>
    intro acc h
    have hput : ∀ a : List (PyKey × PyVal), q.1 ∉ a.map (·.1) → putItem a q = a ++ [q] := by
      intro a
      induction a with
      | nil => intro _; rfl
      | cons b a iha =>
        intro hn
        simp only [List.map_cons, List.mem_cons, not_or] at hn
        simp only [putItem]
        rw [if_neg (fun e => hn.1 e.symm), iha hn.2]
        rfl
    rw [List.foldl_cons, hput acc, ih]
    · simp
    · simpa using h
    · rw [List.map_append, List.nodup_append] at h
      intro hm
      exact h.2.2 _ hm _ (by simp) rfl

mutual
theorem makeJsonable_json : ∀ v : PyVal, JsonValue v → makeJsonable v = .ok v
  | .none, _ | .bool _, _ | .int _, _ | .float _, _ | .str _, _ => by simp [makeJsonable]
  | .list l, h => by
    rw [JsonValue] at h
    rw [makeJsonable, makeJsonableL_json l h]; rfl
  | .dict d, h => by
    rw [JsonValue] at h
    rw [makeJsonable, makeJsonableD_json d h.1]; rfl
  | .npInt _, h | .other, h | .array _, h => by simp [JsonValue] at h
theorem makeJsonableL_json : ∀ l : List PyVal, JsonValueL l → makeJsonableL l = .ok l
  | [], _ => by simp [makeJsonableL]
  | v :: l, h => by
    rw [JsonValueL] at h
    rw [makeJsonableL, makeJsonable_json v h.1, makeJsonableL_json l h.2]; rfl
theorem makeJsonableD_json : ∀ d : List (PyKey × PyVal), JsonValueD d → makeJsonableD d = .ok d
  | [], _ => by simp [makeJsonableD]
  | (k, v) :: d, h => by
    rw [JsonValueD] at h
    obtain ⟨⟨s, rfl⟩, h2, h3⟩ := h
    rw [makeJsonableD, makeJsonable_json v h2, makeJsonableD_json d h3]; rfl
end

mutual
theorem jsonDump_json : ∀ v : PyVal, JsonValue v → jsonDump v = .ok v
  | .none, _ | .bool _, _ | .int _, _ | .float _, _ | .str _, _ => by simp [jsonDump]
  | .list l, h => by
    rw [JsonValue] at h
    rw [jsonDump, jsonDumpL_json l h]; rfl
  | .dict d, h => by
    rw [JsonValue] at h
    rw [jsonDump, jsonDumpD_json d h.1]
    show Except.ok (PyVal.dict (d.foldl putItem [])) = _
    rw [foldl_putItem d [] (by simpa using h.2)]; rfl
  | .npInt _, h | .other, h | .array _, h => by simp [JsonValue] at h
theorem jsonDumpL_json : ∀ l : List PyVal, JsonValueL l → jsonDumpL l = .ok l
  | [], _ => by simp [jsonDumpL]
  | v :: l, h => by
    rw [JsonValueL] at h
    rw [jsonDumpL, jsonDump_json v h.1, jsonDumpL_json l h.2]; rfl
theorem jsonDumpD_json : ∀ d : List (PyKey × PyVal), JsonValueD d → jsonDumpD d = .ok d
  | [], _ => by simp [jsonDumpD]
  | (k, v) :: d, h => by
    rw [JsonValueD] at h
    obtain ⟨⟨s, rfl⟩, h2, h3⟩ := h
    rw [jsonDumpD, jsonDump_json v h2, jsonDumpD_json d h3]; rfl
end

/-! ## Arrays -/

mutual
theorem arrayLike_dump : ∀ v : PyVal, ArrayLike v → ∃ j, makeJsonable v = .ok j ∧ JsonValue j ∧ asArray j = asArray v
  | .bool b, _ => ⟨.bool b, by simp [makeJsonable], by simp [JsonValue], rfl⟩
  | .int n, _ => ⟨.int n, by simp [makeJsonable], by simp [JsonValue], rfl⟩
  | .float q, _ => ⟨.float q, by simp [makeJsonable], by simp [JsonValue], rfl⟩
  | .str s, _ => ⟨.str s, by simp [makeJsonable], by simp [JsonValue], rfl⟩
  | .list l, h => by
    rw [ArrayLike] at h
    obtain ⟨j, e1, e2, e3⟩ := arrayLikeL_dump l h
    exact ⟨.list j, by rw [makeJsonable, e1]; rfl, by rw [JsonValue]; exact e2, by simp only [asArray, e3]⟩
  | .array l, h => by
    rw [ArrayLike] at h
    obtain ⟨j, e1, e2, e3⟩ := arrayLikeL_dump l h
    exact ⟨.list j, by rw [makeJsonable, e1]; rfl, by rw [JsonValue]; exact e2, by simp only [asArray, e3]⟩
  | .none, h | .npInt _, h | .other, h | .dict _, h => by simp [ArrayLike] at h
theorem arrayLikeL_dump : ∀ l : List PyVal, ArrayLikeL l → ∃ j, makeJsonableL l = .ok j ∧ JsonValueL j ∧ asArrayL j = asArrayL l
  | [], _ => ⟨[], by simp [makeJsonableL], by simp [JsonValueL], rfl⟩
  | v :: l, h => by
    rw [ArrayLikeL] at h
    obtain ⟨j, e1, e2, e3⟩ := arrayLike_dump v h.1
    obtain ⟨k, f1, f2, f3⟩ := arrayLikeL_dump l h.2
    exact ⟨j :: k, by rw [makeJsonableL, e1, f1]; rfl, by rw [JsonValueL]; exact ⟨e2, f2⟩, by simp only [asArrayL, e3, f3]⟩
end

theorem listsToNumpy_like (v : PyVal) (h : ArrayLike v) : listsToNumpy v = .ok (asArray v) := by
  cases v <;> simp [ArrayLike] at h <;> simp [listsToNumpy, asArray]

/-- The json form of something array like is array like. -/
theorem listsToNumpy_json (v j : PyVal) (h : ArrayLike v) (e : makeJsonable v = .ok j) (e' : asArray j = asArray v) :
    listsToNumpy j = listsToNumpy v := by
  rw [listsToNumpy_like v h]
  cases v with
  | none | npInt _ | other | dict _ => simp [ArrayLike] at h
  | bool _ | int _ | float _ | str _ =>
    simp only [makeJsonable, Except.ok.injEq] at e
    subst e
    simp [listsToNumpy, asArray]
  | list l =>
    rw [makeJsonable] at e
    cases hl : makeJsonableL l with
    | error _ => rw [hl] at e; cases e
    | ok l' =>
      rw [hl] at e
      have : PyVal.list l' = j := Except.ok.inj e
      subst this
      rw [listsToNumpy, e']
  | array l =>
    rw [makeJsonable] at e
    cases hl : makeJsonableL l with
    | error _ => rw [hl] at e; cases e
    | ok l' =>
      rw [hl] at e
      have : PyVal.list l' = j := Except.ok.inj e
      subst this
      rw [listsToNumpy, e']

theorem arrayTree_like (v : PyVal) (hd : ∀ d, v ≠ .dict d) (h : ArrayTree v) : ArrayLike v := by
  cases v <;> first | exact absurd rfl (hd _) | simpa [ArrayTree] using h

mutual
theorem arrayTree_dump : ∀ v : PyVal, ArrayTree v →
    ∃ j x, makeJsonable v = .ok j ∧ JsonValue j ∧ listsToNumpy j = .ok x ∧ listsToNumpy v = .ok x
  | .dict d, h => by
    rw [ArrayTree] at h
    obtain ⟨j, x, e1, e2, e3, e4, e5⟩ := arrayTreeD_dump d h.1
    exact ⟨.dict j, .dict x, by rw [makeJsonable, e1]; rfl, by rw [JsonValue]; exact ⟨e2, by rw [e5]; exact h.2⟩,
      by rw [listsToNumpy, e3]; rfl, by rw [listsToNumpy, e4]; rfl⟩
  | .none, h | .npInt _, h | .other, h => by simp [ArrayTree, ArrayLike] at h
  | .bool b, h => ⟨.bool b, .bool b, by simp [makeJsonable], by simp [JsonValue], by simp [listsToNumpy], by simp [listsToNumpy]⟩
  | .int n, h => ⟨.int n, .int n, by simp [makeJsonable], by simp [JsonValue], by simp [listsToNumpy], by simp [listsToNumpy]⟩
  | .float q, h => ⟨.float q, .float q, by simp [makeJsonable], by simp [JsonValue], by simp [listsToNumpy], by simp [listsToNumpy]⟩
  | .str s, h => ⟨.str s, .str s, by simp [makeJsonable], by simp [JsonValue], by simp [listsToNumpy], by simp [listsToNumpy]⟩
  | .list l, h => by
    have hl : ArrayLike (.list l) := arrayTree_like _ (by simp) h
    obtain ⟨j, e1, e2, e3⟩ := arrayLike_dump _ hl
    exact ⟨j, _, e1, e2, by rw [listsToNumpy_json _ _ hl e1 e3, listsToNumpy_like _ hl], listsToNumpy_like _ hl⟩
  | .array l, h => by
    have hl : ArrayLike (.array l) := arrayTree_like _ (by simp) h
    obtain ⟨j, e1, e2, e3⟩ := arrayLike_dump _ hl
    exact ⟨j, _, e1, e2, by rw [listsToNumpy_json _ _ hl e1 e3, listsToNumpy_like _ hl], listsToNumpy_like _ hl⟩
theorem arrayTreeD_dump : ∀ d : List (PyKey × PyVal), ArrayTreeD d →
    ∃ j x, makeJsonableD d = .ok j ∧ JsonValueD j ∧ listsToNumpyD j = .ok x ∧ listsToNumpyD d = .ok x ∧ j.map (·.1) = d.map (·.1)
  | [], _ => ⟨[], [], by simp [makeJsonableD], by simp [JsonValueD], by simp [listsToNumpyD], by simp [listsToNumpyD], rfl⟩
  | (k, v) :: d, h => by
    rw [ArrayTreeD] at h
    obtain ⟨⟨s, rfl⟩, h2, h3⟩ := h
    obtain ⟨j, x, e1, e2, e3, e4⟩ := arrayTree_dump v h2
    obtain ⟨j', x', f1, f2, f3, f4, f5⟩ := arrayTreeD_dump d h3
    refine ⟨(.str s, j) :: j', (.str s, x) :: x', ?_, ?_, ?_, ?_, ?_⟩
    · rw [makeJsonableD, e1, f1]; rfl
    · rw [JsonValueD]; exact ⟨⟨s, rfl⟩, e2, f2⟩
    · rw [listsToNumpyD, e3, f3]; rfl
    · rw [listsToNumpyD, e4, f4]; rfl
    · simp [f5]
end

mutual
theorem numpyArray_spec : ∀ v : PyVal, NumpyArray v → asArray v = v ∧ plainArray v = true
  | .bool _, _ | .int _, _ | .float _, _ | .str _, _ | .npInt _, _ => by simp [asArray, plainArray]
  | .array l, h => by
    rw [NumpyArray] at h
    obtain ⟨e, f⟩ := numpyArrayL_spec l h
    simp [asArray, plainArray, e, f]
  | .none, h | .other, h | .dict _, h | .list _, h => by simp [NumpyArray] at h
theorem numpyArrayL_spec : ∀ l : List PyVal, NumpyArrayL l → asArrayL l = l ∧ plainArrayL l = true
  | [], _ => by simp [asArrayL, plainArrayL]
  | v :: l, h => by
    rw [NumpyArrayL] at h
    obtain ⟨e, f⟩ := numpyArray_spec v h.1
    obtain ⟨e', f'⟩ := numpyArrayL_spec l h.2
    simp [asArrayL, plainArrayL, e, f, e', f']
end

/-! ## Legends -/

mutual
theorem dumpable_spec : ∀ v : PyVal, Dumpable v → ∃ j c, makeJsonable v = .ok j ∧ jsonDump j = .ok c
  | .none, _ => ⟨.none, .none, by simp [makeJsonable], by simp [jsonDump]⟩
  | .bool b, _ => ⟨.bool b, .bool b, by simp [makeJsonable], by simp [jsonDump]⟩
  | .int n, _ => ⟨.int n, .int n, by simp [makeJsonable], by simp [jsonDump]⟩
  | .npInt n, _ => ⟨.int n, .int n, by simp [makeJsonable], by simp [jsonDump]⟩
  | .float q, _ => ⟨.float q, .float q, by simp [makeJsonable], by simp [jsonDump]⟩
  | .str s, _ => ⟨.str s, .str s, by simp [makeJsonable], by simp [jsonDump]⟩
  | .other, h => by simp [Dumpable] at h
  | .list l, h => by
    rw [Dumpable] at h
    obtain ⟨j, c, e, f⟩ := dumpableL_spec l h
    exact ⟨.list j, .list c, by rw [makeJsonable, e]; rfl, by rw [jsonDump, f]; rfl⟩
  | .array l, h => by
    rw [Dumpable] at h
    obtain ⟨j, c, e, f⟩ := dumpableL_spec l h
    exact ⟨.list j, .list c, by rw [makeJsonable, e]; rfl, by rw [jsonDump, f]; rfl⟩
  | .dict d, h => by
    rw [Dumpable] at h
    obtain ⟨j, c, e, f⟩ := dumpableD_spec d h
    exact ⟨.dict j, .dict (c.foldl putItem []), by rw [makeJsonable, e]; rfl, by rw [jsonDump, f]; rfl⟩
theorem dumpableL_spec : ∀ l : List PyVal, DumpableL l → ∃ j c, makeJsonableL l = .ok j ∧ jsonDumpL j = .ok c
  | [], _ => ⟨[], [], by simp [makeJsonableL], by simp [jsonDumpL]⟩
  | v :: l, h => by
    rw [DumpableL] at h
    obtain ⟨j, c, e, f⟩ := dumpable_spec v h.1
    obtain ⟨j', c', e', f'⟩ := dumpableL_spec l h.2
    exact ⟨j :: j', c :: c', by rw [makeJsonableL, e, e']; rfl, by rw [jsonDumpL, f, f']; rfl⟩
theorem dumpableD_spec : ∀ d : List (PyKey × PyVal), DumpableD d → ∃ j c, makeJsonableD d = .ok j ∧ jsonDumpD j = .ok c
  | [], _ => ⟨[], [], by simp [makeJsonableD], by simp [jsonDumpD]⟩
  | (k, v) :: d, h => by
    rw [DumpableD] at h
    obtain ⟨hk, h2, h3⟩ := h
    obtain ⟨j, c, e, f⟩ := dumpable_spec v h2
    obtain ⟨j', c', e', f'⟩ := dumpableD_spec d h3
    cases k with
    | other => exact absurd rfl hk
    | str s => exact ⟨(.str s, j) :: j', (.str s, c) :: c', by rw [makeJsonableD, e, e']; rfl, by rw [jsonDumpD, f, f']; rfl⟩
    | int n => exact ⟨(.int n, j) :: j', (.str (intStr n), c) :: c', by rw [makeJsonableD, e, e']; rfl, by rw [jsonDumpD, f, f']; rfl⟩
    | npInt n => exact ⟨(.int n, j) :: j', (.str (intStr n), c) :: c', by rw [makeJsonableD, e, e']; rfl, by rw [jsonDumpD, f, f']; rfl⟩
end

/-! ## What is written can be read -/

/-- A file of this format can be read. -/
def readable : Fmt → Content → Prop
  | .npy, .npy v => plainArray v = true
  | .npz, .npz _ => True
  | .json, .json _ => True
  | _, _ => False

/-- The value can be written, and what is read back is what was returned. -/
structure Saves (R : Recipe) (d : List PyVal) (legend : PyVal) (cs : List Content) : Prop where
  check : R.check d = .ok ()
  encode : R.encode d = cs.map .ok
  readable : List.Forall₂ (fun f c => readable f.2 c) R.files cs
  decode : R.decode cs = R.result d
  legend : ∀ p, R.legend = some p → ∃ v, dumpJsonable legend = .ok (.json v)

theorem dumpJsonable_json (v : PyVal) (h : JsonValue v) : dumpJsonable v = .ok (.json v) := by
  unfold dumpJsonable
  rw [makeJsonable_json v h]
  show (do let v ← jsonDump v; Except.ok (Content.json v)) = _
  rw [jsonDump_json v h]; rfl

theorem dumpRaw_json (v : PyVal) (h : JsonValue v) : dumpRaw v = .ok (.json v) := by
  unfold dumpRaw
  rw [jsonDump_json v h]; rfl

theorem dumpJsonable_tree (v : PyVal) (h : ArrayTree v) : ∃ j x, dumpJsonable v = .ok (.json j) ∧ listsToNumpy j = .ok x ∧ listsToNumpy v = .ok x := by
  obtain ⟨j, x, e1, e2, e3, e4⟩ := arrayTree_dump v h
  refine ⟨j, x, ?_, e3, e4⟩
  unfold dumpJsonable
  rw [e1]
  show (do let v ← jsonDump j; Except.ok (Content.json v)) = _
  rw [jsonDump_json j e2]; rfl

theorem dumpJsonable_legend (v : PyVal) (h : Dumpable v) : ∃ c, dumpJsonable v = .ok (.json c) := by
  obtain ⟨j, c, e, f⟩ := dumpable_spec v h
  refine ⟨c, ?_⟩
  unfold dumpJsonable
  rw [e]
  show (do let v ← jsonDump j; Except.ok (Content.json v)) = _
  rw [f]; rfl

theorem fits_json_tree (p : Path) (v : PyVal) (l : PyVal) (h : ArrayTree v) : ∃ cs, Saves (jsonRecipe p dumpJsonable listsToNumpy) [v] l cs := by
  obtain ⟨j, x, e1, e2, e3⟩ := dumpJsonable_tree v h
  refine ⟨[.json j], rfl, by simp [jsonRecipe, e1], .cons trivial .nil, ?_, by simp [jsonRecipe]⟩
  show (do let v ← listsToNumpy j; Except.ok [v]) = List.mapM listsToNumpy [v]
  rw [e2]
  simp only [List.mapM_cons, List.mapM_nil, e3]
  rfl

theorem fits_json (p : Path) (dump : PyVal → Except PyErr Content) (v : PyVal) (l : PyVal) (h : dump v = .ok (.json v)) :
    ∃ cs, Saves (jsonRecipe p dump .ok) [v] l cs :=
  ⟨[.json v], rfl, by simp [jsonRecipe, h], .cons trivial .nil, rfl, by simp [jsonRecipe]⟩

theorem strItems_eq (items : List (Str × PyVal)) : strItems (items.map fun q => (.str q.1, q.2)) = .ok items := by
  unfold strItems
  induction items with
  | nil => rfl
  | cons q items ih =>
    rw [List.map_cons, List.mapM_cons, ih]; rfl

theorem kwargs_strDict (items : List (Str × PyVal)) : (strDict items).kwargs = .ok items := strItems_eq items

theorem arrays_savez (items : List (Str × PyVal)) (h : ∀ q ∈ items, NumpyArray q.2) : (savez items).arrays = .ok items := by
  unfold savez Content.arrays
  simp only
  induction items with
  | nil => rfl
  | cons q items ih =>
    obtain ⟨e, f⟩ := numpyArray_spec q.2 (h q (by simp))
    rw [List.map_cons, List.mapM_cons, ih (fun q hq => h q (by simp [hq]))]
    simp only [e, f, if_true]
    rfl

theorem savez_eq (items : List (Str × PyVal)) (h : ∀ q ∈ items, NumpyArray q.2) : savez items = .npz items := by
  unfold savez
  congr 1
  conv => rhs; rw [← List.map_id items]
  refine List.map_congr_left ?_
  intro q hq
  rw [(numpyArray_spec q.2 (h q hq)).1]; rfl

theorem fits_npz (p : Path) (items : List (Str × PyVal)) (l : PyVal) (h : ∀ q ∈ items, NumpyArray q.2) :
    ∃ cs, Saves (npzRecipe p) [strDict items] l cs := by
  refine ⟨[savez items], ?_, ?_, .cons trivial .nil, ?_, by simp [npzRecipe]⟩
  · show (do let _ ← (strDict items).kwargs; Except.ok ()) = _
    rw [kwargs_strDict]; rfl
  · simp only [npzRecipe, List.map_cons, List.map_nil, kwargs_strDict]; rfl
  · show (do let items ← (savez items).arrays; Except.ok [strDict items]) = _
    rw [arrays_savez items h]; rfl

/-- Looking up distinct keys. -/
theorem item_zip : ∀ (keys : List Str) (d : List PyVal), keys.Nodup → keys.length = d.length →
    keys.mapM (fun k => (strDict (keys.zip d)).item k) = .ok d := by
  have key : ∀ (keys : List Str) (d : List PyVal) (pre : List (Str × PyVal)), (pre.map (·.1) ++ keys).Nodup → keys.length = d.length →
      keys.mapM (fun k => (strDict (pre ++ keys.zip d)).item k) = .ok d := by
    intro keys
    induction keys with
    | nil =>
      intro d pre _ hl
      have : d = [] := List.length_eq_zero_iff.1 hl.symm
      subst this; rfl
    | cons k keys ih =>
      intro d pre hn hl
      match d, hl with
      | x :: d, hl =>
        have hk : (strDict (pre ++ (k :: keys).zip (x :: d))).item k = .ok x := by
          unfold strDict PyVal.item
          simp only [List.zip_cons_cons, List.map_append, List.map_cons, List.find?_append]
          have : (pre.map fun q => ((PyKey.str q.1, q.2) : PyKey × PyVal)).find? (fun q => decide (q.1 = .str k)) = none := by
            rw [List.find?_eq_none]
            intro q hq
            obtain ⟨q', hq', rfl⟩ := List.mem_map.1 hq
            simp only [decide_eq_true_eq, PyKey.str.injEq]
            intro e
            rw [List.nodup_append] at hn
            exact hn.2.2 _ (List.mem_map_of_mem hq') k (by simp) e
          rw [this]
          simp
        rw [List.mapM_cons, hk]
        have ih' := ih d (pre ++ [(k, x)]) (by simpa using hn) (by simpa using hl)
        simp only [List.append_assoc, List.singleton_append] at ih'
        rw [List.zip_cons_cons, ih']
        rfl
  intro keys d hn hl
  exact key keys d [] (by simpa using hn) hl

theorem fits_keyed (p q : Path) (keys : List Str) (hk : keys.Nodup) (d : List PyVal) (l : PyVal) (hlen : keys.length = d.length)
    (h : ∀ v ∈ d, NumpyArray v) (hl : Dumpable l) : ∃ cs, Saves (keyedRecipe p q keys) d l cs := by
  have hz : ∀ x ∈ keys.zip d, NumpyArray x.2 := fun x hx => h _ (List.of_mem_zip hx).2
  refine ⟨[savez (keys.zip d)], ?_, rfl, .cons trivial .nil, ?_, ?_⟩
  · show arity keys.length d = _
    unfold arity
    rw [if_pos hlen.symm]
  · show (do let items ← (savez (keys.zip d)).arrays; keys.mapM fun k => (strDict items).item k) = Except.ok d
    rw [arrays_savez _ hz]
    exact item_zip keys d hk hlen
  · intro _ _
    exact dumpJsonable_legend l hl

theorem jsonValue_strDict (items : List (Str × PyVal)) (hn : (items.map (·.1)).Nodup) (h : ∀ q ∈ items, JsonValue q.2) : JsonValue (strDict items) := by
  unfold strDict
  rw [JsonValue]
  constructor
  · clear hn
    induction items with
    | nil => simp [JsonValueD]
    | cons q items ih =>
      rw [List.map_cons, JsonValueD]
      exact ⟨⟨_, rfl⟩, h q (by simp), ih fun q hq => h q (by simp [hq])⟩
  · rw [List.map_map]
    have : ((fun x : PyKey × PyVal => x.1) ∘ fun q : Str × PyVal => (PyKey.str q.1, q.2)) = PyKey.str ∘ (·.1) := rfl
    rw [this, ← List.map_map]
    exact hn.map (fun a b e => by injection e)

theorem toProfiles_eq (p : ProfilesDict PyVal) : toProfiles (.dict (p.map fun t => (.str t.1, .dict (t.2.map fun n => (.str n.1, n.2))))) = .ok p := by
  unfold toProfiles
  simp only
  induction p with
  | nil => rfl
  | cons t p ih =>
    rw [List.map_cons, List.mapM_cons, ih]
    simp only [strItems_eq]
    rfl

theorem fits_profiles (t : Str) (p : ProfilesDict PyVal) (l : PyVal) (hc : CleanProfiles p) (h : ∀ t ∈ p, t.2 ≠ [] ∧ ∀ n ∈ t.2, NumpyArray n.2) :
    ∃ cs, Saves (profilesRecipe t) [.dict (p.map fun t => (.str t.1, .dict (t.2.map fun n => (.str n.1, n.2))))] l cs := by
  have hflat : ∀ q ∈ flattenProfiles p, NumpyArray q.2 := by
    rw [flattenProfiles_eq p hc]
    intro q hq
    obtain ⟨t, ht, hq⟩ := List.mem_flatMap.1 hq
    obtain ⟨n, hn, rfl⟩ := List.mem_map.1 hq
    exact (h t ht).2 n hn
  refine ⟨[savez (flattenProfiles p)], ?_, ?_, .cons trivial .nil, ?_, by simp [profilesRecipe]⟩
  · simp only [profilesRecipe, toProfiles_eq]; rfl
  · simp only [profilesRecipe, List.map_cons, List.map_nil, toProfiles_eq]; rfl
  · show (do let items ← (savez (flattenProfiles p)).arrays; let d ← readProfiles items; Except.ok [ofProfiles d]) = _
    rw [arrays_savez _ hflat]
    show (do let d ← readProfiles (flattenProfiles p); Except.ok [ofProfiles d]) = _
    rw [flattenProfiles_eq p hc, readProfiles_eq p hc, List.filter_eq_self.2 (fun t ht => by simpa using (h t ht).1)]
    show Except.ok [ofProfiles p] = Except.ok _
    unfold ofProfiles strDict
    simp

end Demod
