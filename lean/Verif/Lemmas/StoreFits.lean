import Verif.Lemmas.Store

/-! # Every load method reads what it has written -/

namespace Demod

theorem mem_keys (items : List (PyKey × PyVal)) (k : PyKey) (t : PyVal) (h : (k, t) ∈ items) : k ∈ items.map (·.1) :=
  List.mem_map.2 ⟨_, h, rfl⟩

theorem fits_population (t : Str) (a b c l : PyVal) (ha : JsonValue a) (hb : JsonValue b) (hc : JsonValue c) :
    ∃ cs, Saves (populationRecipe t) [a, b, c] l cs := by
  obtain ⟨keys, hkeys⟩ : ∃ keys, keys = ["subgroups_list".toList, "subgroups_probs".toList, "total_number".toList] := ⟨_, rfl⟩
  have hn : keys.Nodup := by rw [hkeys]; decide
  have hl : keys.length = [a, b, c].length := by rw [hkeys]; rfl
  have hz : JsonValue (strDict (keys.zip [a, b, c])) := by
    refine jsonValue_strDict _ ?_ ?_
    · rw [List.map_fst_zip (by omega)]; exact hn
    · intro q hq
      have := (List.of_mem_zip hq).2
      simp only [List.mem_cons, List.not_mem_nil, or_false] at this
      rcases this with e | e | e <;> rw [e] <;> assumption
  refine ⟨[.json (strDict (keys.zip [a, b, c]))], rfl, ?_, .cons trivial .nil, ?_, by simp [populationRecipe]⟩
  · simp only [populationRecipe, List.map_cons, List.map_nil, ← hkeys]
    rw [dumpJsonable_json _ hz]
  · show (do
      let v ← Except.ok (strDict (keys.zip [a, b, c]))
      ["subgroups_list".toList, "subgroups_probs".toList, "total_number".toList].mapM fun k => v.item k) = Except.ok [a, b, c]
    rw [← hkeys]
    exact item_zip keys [a, b, c] hn hl

theorem fits_bulbsStats (t : Str) (a b l : PyVal) (ha : JsonValue a) (hb : JsonValue b) :
    ∃ cs, Saves (bulbsStatsRecipe t) [a, b] l cs := by
  obtain ⟨keys, hkeys⟩ : ∃ keys, keys = ["mean".toList, "std".toList] := ⟨_, rfl⟩
  have hn : keys.Nodup := by rw [hkeys]; decide
  have hl : keys.length = [a, b].length := by rw [hkeys]; rfl
  have hz : JsonValue (strDict (keys.zip [a, b])) := by
    refine jsonValue_strDict _ ?_ ?_
    · rw [List.map_fst_zip (by omega)]; exact hn
    · intro q hq
      have := (List.of_mem_zip hq).2
      simp only [List.mem_cons, List.not_mem_nil, or_false] at this
      rcases this with e | e <;> rw [e] <;> assumption
  refine ⟨[.json (strDict (keys.zip [a, b]))], rfl, ?_, .cons trivial .nil, ?_, by simp [bulbsStatsRecipe]⟩
  · simp only [bulbsStatsRecipe, List.map_cons, List.map_nil, ← hkeys]
    rw [dumpRaw_json _ hz]
  · show (do
      let v ← Except.ok (strDict (keys.zip [a, b]))
      ["mean".toList, "std".toList].mapM fun k => v.item k) = Except.ok [a, b]
    rw [← hkeys]
    exact item_zip keys [a, b] hn hl

theorem fits_bulbs (a b l : PyVal) (ha : ArrayLike a) (hb : ArrayLike b) : ∃ cs, Saves bulbsRecipe [a, b] l cs := by
  obtain ⟨keys, hkeys⟩ : ∃ keys, keys = ["bulbs_consumption".toList, "bulbs_penetration".toList] := ⟨_, rfl⟩
  obtain ⟨a', a1, a2, a3⟩ := arrayLike_dump a ha
  obtain ⟨b', b1, b2, b3⟩ := arrayLike_dump b hb
  have hn : keys.Nodup := by rw [hkeys]; decide
  have hz : JsonValue (strDict (keys.zip [a', b'])) := by
    refine jsonValue_strDict _ ?_ ?_
    · rw [List.map_fst_zip (by rw [hkeys]; simp)]; exact hn
    · intro q hq
      have := (List.of_mem_zip hq).2
      simp only [List.mem_cons, List.not_mem_nil, or_false] at this
      rcases this with e | e <;> rw [e] <;> assumption
  have hm : makeJsonable (strDict (keys.zip [a, b])) = .ok (strDict (keys.zip [a', b'])) := by
    rw [hkeys]
    simp only [strDict, List.zip_cons_cons, List.zip_nil_left, List.map_cons, List.map_nil, makeJsonable, makeJsonableD, a1, b1]
    rfl
  refine ⟨[.json (strDict (keys.zip [a', b']))], rfl, ?_, .cons trivial .nil, ?_, by simp [bulbsRecipe]⟩
  · simp only [bulbsRecipe, List.map_cons, List.map_nil, ← hkeys]
    unfold dumpJsonable
    rw [hm]
    show [(do let v ← jsonDump (strDict (keys.zip [a', b'])); Except.ok (Content.json v))] = _
    rw [jsonDump_json _ hz]; rfl
  · show (do
      let v ← Except.ok (strDict (keys.zip [a', b']))
      let d ← ["bulbs_consumption".toList, "bulbs_penetration".toList].mapM fun k => v.item k
      Except.ok (d.map asArray)) = Except.ok ([a, b].map asArray)
    rw [← hkeys]
    show (do
      let d ← keys.mapM fun k => (strDict (keys.zip [a', b'])).item k
      Except.ok (d.map asArray)) = _
    rw [item_zip keys [a', b'] hn (by rw [hkeys]; rfl)]
    show Except.ok ([a', b'].map asArray) = _
    simp [a3, b3]

theorem fits_clearness (a b c l : PyVal) (ha : NumpyArray a) (hb : NumpyArray b) (hc : JsonValue c) :
    ∃ cs, Saves clearnessRecipe [a, b, c] l cs := by
  obtain ⟨a1, a2⟩ := numpyArray_spec a ha
  obtain ⟨b1, b2⟩ := numpyArray_spec b hb
  refine ⟨[.npy a, .npy b, .json c], rfl, ?_, .cons a2 (.cons b2 (.cons trivial .nil)), rfl, by simp [clearnessRecipe]⟩
  simp only [clearnessRecipe, a1, b1, dumpRaw_json c hc]
  rfl

theorem fits_bulbsConfig (s : Str) (a l : PyVal) (ha : NumpyArray a) : ∃ cs, Saves (bulbsConfigRecipe s) [a] l cs := by
  obtain ⟨a1, a2⟩ := numpyArray_spec a ha
  refine ⟨[.npy a], rfl, ?_, .cons a2 .nil, rfl, by simp [bulbsConfigRecipe]⟩
  simp only [bulbsConfigRecipe, List.map_cons, List.map_nil, a1]

theorem fits_sparse (act s : Str) (a b c d e f g l : PyVal) (h : ∀ v ∈ [a, b, c, d, e, f, g], NumpyArray v) (hl : Dumpable l) :
    ∃ cs, Saves (sparseRecipe act s) [a, b, c, d, e, f, g] l cs := by
  simp only [List.mem_cons, List.not_mem_nil, or_false, forall_eq_or_imp, forall_eq] at h
  obtain ⟨ha, hb, hc, hd, he, hf, hg⟩ := h
  obtain ⟨a1, a2⟩ := numpyArray_spec a ha
  obtain ⟨b1, b2⟩ := numpyArray_spec b hb
  obtain ⟨c1, c2⟩ := numpyArray_spec c hc
  obtain ⟨d1, d2⟩ := numpyArray_spec d hd
  have hz : ∀ x ∈ (positional 3).zip [e, f, g], NumpyArray x.2 := by
    intro x hx
    have := (List.of_mem_zip hx).2
    simp only [List.mem_cons, List.not_mem_nil, or_false] at this
    rcases this with e | e | e <;> rw [e] <;> assumption
  refine ⟨[.npy a, .npy b, .npy c, .npy d, savez ((positional 3).zip [e, f, g])], rfl, ?_,
    .cons a2 (.cons b2 (.cons c2 (.cons d2 (.cons trivial .nil)))), ?_, ?_⟩
  · simp only [sparseRecipe, a1, b1, c1, d1]
    rfl
  · show (do
      match ← (savez ((positional 3).zip [e, f, g])).arrays with
      | [x, y, z] => Except.ok [a, b, c, d, x.2, y.2, z.2]
      | _ => Except.error PyErr.valueError) = Except.ok [a, b, c, d, e, f, g]
    rw [arrays_savez _ hz]
    rfl
  · intro _ _
    exact dumpJsonable_legend l hl

/-- What every load method writes for the values it is made for is read back as the value that was returned. -/
theorem fits_storable (act : Str) (r : Req) (d : List PyVal) (l : PyVal) (h : Storable r d l) : ∃ cs, Saves (recipe act r) d l cs := by
  unfold Storable at h
  split at h
  · exact fits_population _ _ _ _ _ h.1 h.2.1 h.2.2
  · obtain ⟨ht, items, t, rfl, hm⟩ := h
    obtain ⟨cs, f⟩ := fits_json_tree { dir := [], name := "appliance_dict.json".toList } _ l ht
    refine ⟨cs, ?_, f.encode, f.readable, f.decode, f.legend⟩
    show (if _ ∈ items.map (·.1) then Except.ok () else Except.error PyErr.valueError) = _
    rw [if_pos (mem_keys _ _ _ hm)]
  · exact fits_json_tree _ _ _ h
  · exact fits_bulbs _ _ _ h.1 h.2
  · exact fits_json _ _ _ _ (dumpRaw_json _ h)
  · exact fits_json _ _ _ _ (dumpRaw_json _ h)
  · exact fits_json _ _ _ _ (dumpRaw_json _ h)
  · obtain ⟨p, rfl, hc, hp⟩ := h
    exact fits_profiles _ _ _ hc hp
  · obtain ⟨items, rfl, hi⟩ := h; exact fits_npz _ items _ hi
  · obtain ⟨items, rfl, hi⟩ := h; exact fits_npz _ items _ hi
  · obtain ⟨items, rfl, hi⟩ := h; exact fits_npz _ items _ hi
  · obtain ⟨items, rfl, hi⟩ := h; exact fits_npz _ items _ hi
  · exact fits_json _ _ _ _ (dumpJsonable_json _ h)
  · exact fits_clearness _ _ _ _ h.1 h.2.1 h.2.2
  · exact fits_bulbsConfig _ _ _ h
  · exact fits_bulbsStats _ _ _ _ h.1 h.2
  · exact fits_json_tree _ _ _ h
  · exact fits_keyed _ _ _ (by decide) _ _ rfl h.1 h.2
  · exact fits_keyed _ _ _ (by decide) _ _ rfl h.1 h.2
  · exact fits_sparse _ _ _ _ _ _ _ _ _ _ h.1 h.2
  · exact h.elim

mutual
theorem asArray_like : ∀ v : PyVal, ArrayLike v → asArray v = withArrays v
  | .bool _, _ | .int _, _ | .float _, _ | .str _, _ => by simp [asArray, withArrays]
  | .list l, h => by rw [ArrayLike] at h; simp [asArray, withArrays, asArrayL_like l h]
  | .array l, h => by rw [ArrayLike] at h; simp [asArray, withArrays, asArrayL_like l h]
  | .none, h | .npInt _, h | .other, h | .dict _, h => by simp [ArrayLike] at h
theorem asArrayL_like : ∀ l : List PyVal, ArrayLikeL l → asArrayL l = withArraysL l
  | [], _ => by simp [asArrayL, withArraysL]
  | v :: l, h => by rw [ArrayLikeL] at h; simp [asArrayL, withArraysL, asArray_like v h.1, asArrayL_like l h.2]
end

mutual
theorem listsToNumpy_tree : ∀ v : PyVal, ArrayTree v → listsToNumpy v = .ok (withArrays v)
  | .dict d, h => by
    rw [ArrayTree] at h
    rw [listsToNumpy, listsToNumpyD_tree d h.1, withArrays]
    rfl
  | .none, h | .npInt _, h | .other, h => by simp [ArrayTree, ArrayLike] at h
  | .bool _, _ | .int _, _ | .float _, _ | .str _, _ => by simp [listsToNumpy, withArrays]
  | .list l, h => by
    have hl : ArrayLike (.list l) := arrayTree_like _ (by simp) h
    rw [listsToNumpy_like _ hl, asArray_like _ hl]
  | .array l, h => by
    have hl : ArrayLike (.array l) := arrayTree_like _ (by simp) h
    rw [listsToNumpy_like _ hl, asArray_like _ hl]
theorem listsToNumpyD_tree : ∀ d : List (PyKey × PyVal), ArrayTreeD d → listsToNumpyD d = .ok (withArraysD d)
  | [], _ => by simp [listsToNumpyD, withArraysD]
  | (k, v) :: d, h => by
    rw [ArrayTreeD] at h
    obtain ⟨⟨s, rfl⟩, h2, h3⟩ := h
    rw [listsToNumpyD, listsToNumpy_tree v h2, listsToNumpyD_tree d h3, withArraysD]
    rfl
end

/-- The value returned after parsing. -/
theorem result_returned (act : Str) (r : Req) (d : List PyVal) (l : PyVal) (h : Storable r d l) : (recipe act r).result d = .ok (Returned r d) := by
  have tree : ∀ v, ArrayTree v → [v].mapM listsToNumpy = .ok [withArrays v] := by
    intro v hv
    simp only [List.mapM_cons, List.mapM_nil, listsToNumpy_tree v hv]
    rfl
  unfold Storable at h
  split at h
  · rfl
  · exact tree _ h.1
  · exact tree _ h
  · show Except.ok [asArray _, asArray _] = Except.ok [withArrays _, withArrays _]
    rw [asArray_like _ h.1, asArray_like _ h.2]
  · rfl
  · rfl
  · rfl
  · rfl
  · rfl
  · rfl
  · rfl
  · rfl
  · rfl
  · rfl
  · rfl
  · rfl
  · exact tree _ h
  · rfl
  · rfl
  · rfl
  · exact h.elim

end Demod
