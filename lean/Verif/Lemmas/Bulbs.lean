import Verif.Model.Bulbs
import Verif.Props.Sampling
import Verif.Lemmas.Equip

/-! # Lemmas on the bulbs of the households -/

namespace Demod

theorem bulbRow_spec (consumptions penetration : List Rat) (hlen : penetration.length ≤ consumptions.length) (hnn : ∀ x ∈ penetration, 0 ≤ x) (width : Nat) (us : List Rat)
    (h0 : ∀ u ∈ us, 0 ≤ u) (h1 : ∀ u ∈ us, u < penetration.sum) (hw : us.length ≤ width) :
    ∃ row, bulbRow consumptions penetration width us = .ok row ∧ row.length = width ∧
      (∀ (k : Nat) u, us[k]? = some u → ∃ j p, penetration[j]? = some p ∧ (penetration.take j).sum ≤ u ∧ u < (penetration.take j).sum + p ∧ row[k]? = consumptions[j]?) ∧
      (∀ k, us.length ≤ k → k < width → row[k]? = some 0) := by
  have hne : ∀ u ∈ us, ∃ i, mcCdf (cumsum penetration) u = .ok i := fun u hu => exists_mcPdf penetration u (h0 u hu) (h1 u hu)
  obtain ⟨inds, hinds⟩ := mapM_all_ok (mcCdf (cumsum penetration)) us hne
  obtain ⟨il, iget⟩ := mapM_ok_get _ _ _ hinds
  have hsmall : ∀ i ∈ inds, i < consumptions.length := by
    intro i hi
    obtain ⟨k, hk⟩ := List.getElem?_of_mem hi
    have hku : k < us.length := by rw [← il]; exact (List.getElem?_eq_some_iff.mp hk).1
    obtain ⟨y, hy, hm⟩ := iget k us[k] (List.getElem?_eq_getElem hku)
    rw [hk] at hy
    cases hy
    obtain ⟨hlt, -⟩ := (mcPdf_iff penetration hnn us[k] (h0 _ (List.getElem_mem _)) (h1 _ (List.getElem_mem _)) i).mp hm
    omega
  obtain ⟨powers, hpowers⟩ := mapM_all_ok (fun k => pyGet consumptions k) inds fun i hi => ⟨consumptions[i]'(hsmall i hi), by
    unfold pyGet
    rw [List.getElem?_eq_getElem (hsmall i hi)]⟩
  obtain ⟨pl, pget⟩ := mapM_ok_get _ _ _ hpowers
  refine ⟨powers ++ List.replicate (width - powers.length) 0, ?_, by simp; omega, fun k u hu => ?_, fun k hk hkw => ?_⟩
  · change (do let inds ← us.mapM (mcCdf (cumsum penetration)); let powers ← inds.mapM fun k => pyGet consumptions k; Except.ok (powers ++ List.replicate (width - powers.length) 0)) = _
    rw [hinds]
    change (do let powers ← inds.mapM fun k => pyGet consumptions k; Except.ok (powers ++ List.replicate (width - powers.length) 0)) = _
    rw [hpowers]
    rfl
  · obtain ⟨i, hi, hm⟩ := iget k u hu
    have hmem := List.mem_of_getElem? hu
    obtain ⟨hlt, h3, h4⟩ := (mcPdf_iff penetration hnn u (h0 _ hmem) (h1 _ hmem) i).mp hm
    rw [take_succ_sum _ i hlt] at h4
    obtain ⟨v, hv, hpy⟩ := pget k i hi
    have hk : k < powers.length := (List.getElem?_eq_some_iff.mp hv).1
    refine ⟨i, penetration[i], List.getElem?_eq_getElem hlt, h3, h4, ?_⟩
    rw [List.getElem?_append_left hk, hv]
    unfold pyGet at hpy
    cases hc : consumptions[i]? with
    | none => rw [hc] at hpy; cases hpy
    | some w => rw [hc] at hpy; rw [Except.ok.inj hpy]
  · rw [List.getElem?_append_right (by omega), List.getElem?_replicate, if_pos (by omega)]

end Demod
