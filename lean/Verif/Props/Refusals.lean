import Verif.Model.Refusals
import Verif.Spec.Refusals

/-! # C137: refused requests of the loaders -/

namespace Demod

theorem strFormat_text (args : List (List Char)) (kw : List (List Char × List Char)) (s rest : List Char) (n : Nat) (h1 : '{' ∉ s) (h2 : '}' ∉ s) :
    strFormat args kw (s ++ rest) none n = (strFormat args kw rest none n).map fun r => s ++ r := by
  induction s with
  | nil => cases h : strFormat args kw rest none n <;> simp [h, Except.map]
  | cons c s ih =>
    simp only [List.mem_cons, not_or] at h1 h2
    have a1 : c ≠ '{' := fun e => h1.1 e.symm
    have a2 : c ≠ '}' := fun e => h2.1 e.symm
    rw [List.cons_append, strFormat, if_neg a1, if_neg a2, ih h1.2 h2.2]
    cases strFormat args kw rest none n <;> rfl

theorem strFormat_name (args : List (List Char)) (kw : List (List Char × List Char)) (s rest : List Char) (n : Nat) (h : '}' ∉ s) : ∀ f : List Char,
    strFormat args kw (s ++ '}' :: rest) (some f) n = (fieldValue args kw (f ++ s) n >>= fun v => (strFormat args kw rest none (if f ++ s = [] then n + 1 else n)).map fun r => v ++ r) := by
  induction s with
  | nil =>
    intro f
    rw [List.nil_append, strFormat, if_pos rfl, List.append_nil]
    cases fieldValue args kw f n with
    | error e => rfl
    | ok v => cases strFormat args kw rest none (if f = [] then n + 1 else n) <;> rfl
  | cons c s ih =>
    intro f
    simp only [List.mem_cons, not_or] at h
    have a2 : c ≠ '}' := fun e => h.1 e.symm
    rw [List.cons_append, strFormat, if_neg a2, ih h.2, List.append_assoc, List.singleton_append]

theorem format_drop (args : List (List Char)) (kw : List (List Char × List Char)) (ps : List Piece) (hp : ∀ p ∈ ps, p.Plain) : ∀ n,
    strFormat args kw (ps.flatMap Piece.write) none n = filled kw ps (args.drop n) := by
  induction ps with
  | nil => intro n; rfl
  | cons p ps ih =>
    intro n
    have ih := ih fun q hq => hp q (List.mem_cons_of_mem _ hq)
    have h := hp p List.mem_cons_self
    rw [List.flatMap_cons]
    cases p with
    | text s =>
      rw [Piece.write, strFormat_text args kw s _ n h.1 h.2, ih, filled]
    | next =>
      have := strFormat_name args kw [] (ps.flatMap Piece.write) n (by simp) []
      show strFormat args kw ('{' :: '}' :: ps.flatMap Piece.write) none n = _
      rw [strFormat, if_pos rfl]
      rw [List.nil_append] at this
      rw [this]
      by_cases hn : n < args.length
      · rw [List.drop_eq_getElem_cons hn, filled]
        simp [fieldValue, hn, ih, bind, Except.bind]
      · rw [List.drop_eq_nil_of_le (by omega), filled]
        simp [fieldValue, hn, bind, Except.bind]
    | named k =>
      have := strFormat_name args kw k (ps.flatMap Piece.write) n h.2 []
      show strFormat args kw ('{' :: (k ++ ['}']) ++ ps.flatMap Piece.write) none n = _
      rw [List.cons_append, List.append_assoc, List.singleton_append, strFormat, if_pos rfl, this, List.nil_append, if_neg h.1, ih, filled]
      unfold fieldValue
      rw [if_neg h.1]
      cases kw.find? fun p => p.1 = k <;> rfl

/-- **C137 (messages).** For any template and any arguments, the message is the template with its fields replaced in order; a field without an argument raises another exception in place of the message. -/
theorem C137_messages (args : List (List Char)) (kw : List (List Char × List Char)) (ps : List Piece) (hp : ∀ p ∈ ps, p.Plain) :
    strFormat args kw (ps.flatMap Piece.write) none 0 = filled kw ps args := by
  rw [format_drop args kw ps hp 0, List.drop_zero]

/-- **C137 (full statement).** A request that is not supported raises the announced exception: a `NotImplementedError` for the Fisher lighting of another version, and a `ValueError` for another population type. -/
def C137_full : Prop :=
  (∀ version name, version ≠ "v0.1".toList → ∃ m, germanFisher version name = .error ⟨.notImplementedError, some m⟩) ∧
  (∀ populationType name, populationType ≠ "crest".toList → populationType ≠ "resident_number".toList →
    ∀ read : Except Raised Nat, ∃ m, crestPopulation read populationType name = .error ⟨.valueError, some m⟩)

/-- **C137 (counterexample).** For every version besides v0.1 the German loader raises an `IndexError` in place of the `NotImplementedError`; vBottaccioli, which the constructor accepts, is one of them. For every unknown population type the CREST loader raises a
`KeyError` in place of the `ValueError`. -/
theorem C137_counterexample :
    (∀ version name, version ≠ "v0.1".toList → germanFisher version name = .error ⟨.indexError, none⟩) ∧
    "vBottaccioli".toList ≠ "v0.1".toList ∧
    ∀ {α : Type} (read : Except Raised α) (populationType name : List Char), populationType ≠ "crest".toList → populationType ≠ "resident_number".toList →
      crestPopulation read populationType name = .error ⟨.keyError, none⟩ := by
  refine ⟨?_, by decide +kernel, ?_⟩
  · intro version name h
    rw [germanFisher, if_neg h]
    rfl
  · intro α read populationType name h1 h2
    rw [crestPopulation, if_neg (fun h => h.elim h1 h2)]
    rfl

theorem C137_full_false : ¬ C137_full := by
  rintro ⟨h, -⟩
  obtain ⟨m, hm⟩ := h "vBottaccioli".toList [] (by decide +kernel)
  rw [C137_counterexample.1 _ _ (by decide +kernel)] at hm
  cases hm

/-- **C137 (partial).** What is supported is given: the Fisher lighting of v0.1 and the two population types of CREST. The sparse activities of the German survey and the heating systems of CREST are refused with a `NotImplementedError` that names what was asked
for. Missing: the two requests of the counterexample. -/
theorem C137_refusals_partial :
    (∀ name, germanFisher "v0.1".toList name = .ok (30, 60, 12)) ∧
    (∀ {α : Type} (read : Except Raised α) name, crestPopulation read "crest".toList name = read ∧ crestPopulation read "resident_number".toList name = read) ∧
    (∀ {α : Type} (parse : Except Raised α) activityType datasetName, gtouSparse parse activityType datasetName =
      if activityType = "Sparse9States".toList then parse
      else .error ⟨.notImplementedError, some ("No sparse parsing defined for'".toList ++ activityType ++ "' in dataset '".toList ++ datasetName ++ "'".toList)⟩) ∧
    (∀ version method name, crestHeatingRows version method name =
      if version = "v_2.2".toList then .ok 3 else if version = "v_2.3.3".toList then .ok 5
      else .error ⟨.notImplementedError, some (method ++ " is not implemented for ".toList ++ name ++ " version '".toList ++ version ++ "'.".toList)⟩) := by
  refine ⟨?_, ?_, ?_, ?_⟩
  · intro name; rw [germanFisher, if_pos rfl]
  · intro α read name
    exact ⟨by rw [crestPopulation, if_pos (Or.inl rfl)], by rw [crestPopulation, if_pos (Or.inr rfl)]⟩
  · intro α parse activityType datasetName
    unfold gtouSparse
    split
    · rfl
    · have := C137_messages [activityType, datasetName] [] [.text "No sparse parsing defined for'".toList, .next, .text "' in dataset '".toList, .next, .text "'".toList]
        (by intro p hp; simp only [List.mem_cons, List.not_mem_nil, or_false] at hp; rcases hp with rfl | rfl | rfl | rfl | rfl <;> first | trivial | exact ⟨by decide +kernel, by decide +kernel⟩)
      have e : "No sparse parsing defined for'{}' in dataset '{}'".toList = [Piece.text "No sparse parsing defined for'".toList, .next, .text "' in dataset '".toList, .next, .text "'".toList].flatMap Piece.write := by decide +kernel
      unfold raiseFormat
      rw [e, this]
      simp only [filled, Except.map, List.append_assoc, List.append_nil]
  · intro version method name
    unfold crestHeatingRows
    split
    · rfl
    split
    · rfl
    · have := C137_messages [] [("not_implemented".toList, method), ("dataset".toList, name), ("version".toList, version)]
        [.named "not_implemented".toList, .text " is not implemented for ".toList, .named "dataset".toList, .text " version '".toList, .named "version".toList, .text "'.".toList]
        (by intro p hp; simp only [List.mem_cons, List.not_mem_nil, or_false] at hp; rcases hp with rfl | rfl | rfl | rfl | rfl | rfl <;> exact ⟨by decide +kernel, by decide +kernel⟩)
      have e : "{not_implemented} is not implemented for {dataset} version '{version}'.".toList =
        [Piece.named "not_implemented".toList, .text " is not implemented for ".toList, .named "dataset".toList, .text " version '".toList, .named "version".toList, .text "'.".toList].flatMap Piece.write := by decide +kernel
      have d1 : ¬ "not_implemented".toList = "dataset".toList := by decide +kernel
      have d2 : ¬ "not_implemented".toList = "version".toList := by decide +kernel
      have d3 : ¬ "dataset".toList = "version".toList := by decide +kernel
      unfold raiseFormat
      rw [e, this]
      generalize "not_implemented".toList = k1 at *
      generalize "dataset".toList = k2 at *
      generalize "version".toList = k3 at *
      simp [filled, Except.map, d1, d2, d3]

example : gtouSparse (.ok 1) "4_States".toList "GermanTOU".toList = .error ⟨.notImplementedError, some "No sparse parsing defined for'4_States' in dataset 'GermanTOU'".toList⟩ := by decide +kernel

example : crestPopulation (.ok 3) "household_types".toList "CREST".toList = .error ⟨.keyError, none⟩ := by decide +kernel

example : (Piece.text "version ".toList).Plain ∧ Piece.next.Plain ∧ (Piece.named "dataset".toList).Plain := ⟨⟨by decide +kernel, by decide +kernel⟩, trivial, by decide +kernel, by decide +kernel⟩

end Demod
