import Verif.Spec.SurveyStats
import Verif.Lemmas.Survey
import Verif.Lemmas.Subgroup

/-! # Lemmas on the statistics of the survey -/

namespace Demod

theorem strLt_total : StrictTotal strLt where
  irrefl a := by simp [strLt]
  trans a b c := by
    simp only [strLt, decide_eq_true_eq]
    exact lt_trans
  total a b := by
    simp only [strLt, decide_eq_false_iff_not, not_lt]
    exact fun h1 h2 => le_antisymm h2 h1

theorem intGet_of_mem (d : List (Int × Str)) (nd : (d.map (·.1)).Nodup) (k : Int) (v : Str) (h : (k, v) ∈ d) : intGet d k = some v := by
  unfold intGet
  induction d with
  | nil => cases h
  | cons q d ih =>
    rw [List.map_cons, List.nodup_cons] at nd
    by_cases hq : q.1 = k
    · rw [List.find?_cons_of_pos (by simpa using hq)]
      rcases List.mem_cons.1 h with rfl | h
      · rfl
      · exact absurd (hq ▸ List.mem_map_of_mem (f := (·.1)) h) nd.1
    · rw [List.find?_cons_of_neg (by simpa using hq)]
      rcases List.mem_cons.1 h with rfl | h
      · exact absurd rfl hq
      · exact ih nd.2 h

theorem intGet_put (d : List (Int × Str)) (k k' : Int) (v : Str) : intGet (intPut d k v) k' = if k' = k then some v else intGet d k' := by
  unfold intGet
  induction d with
  | nil =>
    unfold intPut
    by_cases h : k' = k
    · simp [h]
    · simp [h, Ne.symm h]
  | cons q d ih =>
    unfold intPut
    by_cases hq : q.1 = k
    · rw [if_pos hq]
      by_cases h : k' = k
      · simp [h]
      · simp [h, Ne.symm h, show q.1 ≠ k' from fun e => h (by rw [← e, hq])]
    · rw [if_neg hq]
      by_cases h : q.1 = k'
      · rw [List.find?_cons_of_pos (by simpa using h), List.find?_cons_of_pos (by simpa using h), if_neg (by rw [← h]; exact hq)]
      · rw [List.find?_cons_of_neg (by simpa using h), List.find?_cons_of_neg (by simpa using h)]
        exact ih

end Demod
