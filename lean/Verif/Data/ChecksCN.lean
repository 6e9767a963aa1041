import Verif.Data.Checks

/-!
# Bounds of reference coordination numbers and of the exponents of D4S
-/

namespace TadDftd4.Data

theorem check_refcn_le : (List.range 104).all (fun Z => (List.range 7).all fun r =>
    Nat.ble (at2 refcn Z r) (152 * 10 ^ 13)) = true := by decide +kernel

theorem check_wf_le : wfpair.all (fun r => r.all (Nat.ble · 6000000000)) = true := by decide +kernel

theorem wfpair_le (Z Z' : ℕ) : at2 wfpair Z Z' ≤ 6000000000 := by
  unfold at2
  rw [List.getD_eq_getElem?_getD, List.getD_eq_getElem?_getD]
  rcases h1 : wfpair[Z]? with _ | row
  · simp
  · rw [Option.getD_some]
    rcases h2 : row[Z']? with _ | x
    · simp
    · have h := check_wf_le
      rw [List.all_eq_true] at h
      have h3 := h row (List.mem_of_getElem? h1)
      rw [List.all_eq_true] at h3
      exact Nat.le_of_ble_eq_true (h3 x (List.mem_of_getElem? h2))

end TadDftd4.Data
