import Mathlib.Data.Int.Order.Basic
import Verif.Data.Refs
import Verif.Data.Alpha
import Verif.Data.Charges
import Verif.Data.WfPair
import Verif.Data.R4R2

/-!
# Exhaustive checks of the transcribed tables

The tables are finite, so each statement below is settled for all elements by evaluation in the kernel.
-/

namespace TadDftd4

/-- Entry of a nested list. -/
def at2 {α : Type} [Zero α] (l : List (List α)) (i j : ℕ) : α := (l.getD i []).getD j 0
def at3 {α : Type} [Zero α] (l : List (List (List α))) (i j k : ℕ) : α := at2 (l.getD i []) j k

/-- Lift an exhaustive check. -/
theorem forall_of_all1 {N : ℕ} {p : ℕ → Bool} (h : (List.range N).all p = true) :
    ∀ i < N, p i = true := by
  intro i hi
  rw [List.all_eq_true] at h
  exact h i (List.mem_range.2 hi)

theorem forall_of_all2 {N M : ℕ} {p : ℕ → ℕ → Bool}
    (h : (List.range N).all (fun i => (List.range M).all (p i)) = true) :
    ∀ i < N, ∀ j < M, p i j = true := fun i hi => forall_of_all1 (forall_of_all1 h i hi)

theorem forall_of_all3 {N M K : ℕ} {p : ℕ → ℕ → ℕ → Bool}
    (h : (List.range N).all (fun i => (List.range M).all fun j => (List.range K).all (p i j)) =
      true) : ∀ i < N, ∀ j < M, ∀ k < K, p i j k = true :=
  fun i hi j hj => forall_of_all1 (forall_of_all2 h i hi j hj)

namespace Data

/-- Number of Gaussians and reference system index, for all elements and references. -/
theorem check_refs : (List.range 104).all (fun Z => (List.range 7).all fun r =>
    (at2 refc Z r == 0 || at2 refc Z r == 1 || at2 refc Z r == 3) && at2 refsys Z r < 18 &&
    ((at2 refc Z r == 0) == (at2 refsys Z r == 0))) = true := by decide +kernel

theorem check_dims : refc.length = 104 ∧ (refc.all (·.length == 7)) ∧ refsys.length = 104 ∧
    (refsys.all (·.length == 7)) ∧ refcn.length = 104 ∧ (refcn.all (·.length == 7)) ∧
    refascale.length = 104 ∧ (refascale.all (·.length == 7)) ∧ refscount.length = 104 ∧
    (refscount.all (·.length == 7)) ∧ refalpha.length = 104 ∧
    (refalpha.all fun m => m.length == 7 && m.all (·.length == 23)) ∧
    secscale.length = 18 ∧ (secscale.all (·.length == 1)) ∧
    secalpha.length = 18 ∧ (secalpha.all (·.length == 23)) ∧
    eeqQ.length = 104 ∧ (eeqQ.all (·.length == 7)) ∧ eeqH.length = 104 ∧
    (eeqH.all (·.length == 7)) ∧ gfnQ.length = 87 ∧ (gfnQ.all (·.length == 7)) ∧
    gfnH.length = 87 ∧ (gfnH.all (·.length == 7)) ∧ wfpair.length = 119 ∧
    (wfpair.all (·.length == 119)) ∧ r4OverR2.length = 119 := by decide +kernel

theorem check_eeqQ : (List.range 104).all (fun Z => (List.range 7).all fun r =>
    decide (-10 ^ 14 < at2 eeqQ Z r)) = true := by decide +kernel

theorem check_gfnQ : (List.range 87).all (fun Z => (List.range 7).all fun r =>
    decide (-5 * 10 ^ 14 < at2 gfnQ Z r) && (decide (25 ≤ Z) || decide (-10 ^ 14 < at2 gfnQ Z r)))
    = true := by decide +kernel

theorem check_first : (List.range 103).all (fun Z => decide (0 < at2 refc (Z + 1) 0)) = true := by
  decide +kernel

theorem check_pad_q : (List.range 7).all (fun r => at2 eeqQ 0 r == 0 && at2 gfnQ 0 r == 0) = true := by
  decide +kernel

theorem check_pad : (List.range 7).all (fun r => at2 refc 0 r == 0) = true := by decide +kernel

/-- A reference carries the largest reference CN of its element (maximum over all seven entries). -/
def isTop (Z r : ℕ) : Bool := (List.range 7).all fun s => Nat.ble (at2 refcn Z s) (at2 refcn Z r)

/-- For every element exactly one reference carries the largest entry. -/
theorem check_top : (List.range 103).all (fun Z =>
    ((List.range 7).filter (fun r => isTop (Z + 1) r && !(at2 refc (Z + 1) r == 0))).length == 1)
    = true := by
  decide +kernel

/-- Reference CNs of the references of an element are pairwise different. -/
theorem check_distinct : (List.range 104).all (fun Z => (List.range 7).all fun r =>
    (List.range 7).all fun s => r == s || at2 refc Z r == 0 || at2 refc Z s == 0 ||
      !(at2 refcn Z r == at2 refcn Z s)) = true := by decide +kernel

/-- Missing references have no polarizability, existing ones a positive static one. -/
theorem check_alpha : (List.range 104).all (fun Z => (List.range 7).all fun r =>
    (if at2 refc Z r == 0 then (List.range 23).all (fun w => at3 refalpha Z r w == 0)
     else (List.range 23).all (fun w => decide (0 < at3 refalpha Z r w)))) = true := by
  decide +kernel

theorem check_ascale : (List.range 104).all (fun Z => (List.range 7).all fun r =>
    Nat.ble (at2 refascale Z r) (10 ^ 14) &&
    (at2 refc Z r == 0 || decide (0 < at2 refascale Z r))) = true := by decide +kernel

/-- Compare the first `k` rows with the first `k` columns (linear traversal of the table). -/
def symAux : ℕ → List (List ℕ) → List (List ℕ) → Bool
  | 0, _, _ => true
  | k + 1, rows, cols => (rows.headD [] == cols.map (·.headD 0)) &&
      symAux k rows.tail (cols.map List.tail)

theorem symAux_row {l : List (List ℕ)} : ∀ (k i : ℕ),
    symAux k (l.drop i) (l.map (List.drop i)) = true →
    ∀ j < k, l.getD (i + j) [] = l.map (fun r => r.getD (i + j) 0)
  | 0, _, _, _, hj => absurd hj (by omega)
  | k + 1, i, h, j, hj => by
    rw [symAux, Bool.and_eq_true, beq_iff_eq] at h
    rcases j with _ | j
    · have h1 := h.1
      simp only [List.map_map] at h1
      have e1 : (l.drop i).headD [] = l.getD i [] := by
        simp [List.headD_eq_head?_getD, List.head?_drop, List.getD_eq_getElem?_getD]
      rw [e1] at h1
      rw [Nat.add_zero, h1]
      refine List.map_congr_left fun r _ => ?_
      simp [List.headD_eq_head?_getD, List.head?_drop, List.getD_eq_getElem?_getD]
    · have h2 := h.2
      rw [List.tail_drop, List.map_map] at h2
      have e2 : (List.tail ∘ List.drop i : List ℕ → List ℕ) = List.drop (i + 1) := by
        funext r; simp [List.tail_drop]
      rw [e2] at h2
      have := symAux_row k (i + 1) h2 j (by omega)
      rw [show i + (j + 1) = i + 1 + j by omega]
      exact this

theorem sym_of_symAux {l : List (List ℕ)} {k : ℕ} (h : symAux k l l = true) {i : ℕ} (hi : i < k)
    (j : ℕ) : at2 l i j = at2 l j i := by
  have e : l.map (List.drop 0) = l := List.map_id l
  have := symAux_row k 0 (by rw [e]; simpa using h) i hi
  rw [Nat.zero_add] at this
  unfold at2
  rw [this]
  simp only [List.getD_eq_getElem?_getD, List.getElem?_map]
  cases h' : l[j]? <;> simp

theorem check_wf_sym : symAux 119 wfpair wfpair = true := by decide +kernel

theorem check_wf_pos : wfpair.tail.all (fun r => r.tail.all (Nat.ble 1)) = true := by decide +kernel

theorem check_wf_pad : (List.range 119).all (fun i => Nat.beq (at2 wfpair 0 i) 0) = true := by
  decide +kernel

theorem check_r4 : (List.range 118).all (fun i => Nat.ble 1 (r4OverR2.getD (i + 1) 0)) = true := by
  decide +kernel

end Data

end TadDftd4
