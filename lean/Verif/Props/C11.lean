import Verif.Lemmas.Setup
import Verif.Spec.Atm

/-!
# C11: the angular factor of the three-body energy is `3 cos cos cos + 1`
-/

open scoped Classical EuclideanGeometry

namespace TadDftd4

open Tensor

/-- Shapes of the input of `get_atm_dispersion`. -/
structure D3Shapes (numbers : Tensor ℕ) (positions c9 radii : Tensor ℝ) (n : ℕ) (B : Shape) :
    Prop where
  num : numbers.Ok (n :: B)
  pos : positions.Ok (3 :: n :: B)
  c9 : c9.Ok (n :: n :: n :: B)
  radii : radii.Ok (n :: n :: B)

/-- Real atoms of entry `b` are not (numerically) on top of each other. -/
def Separated (env : Env) (numbers : Tensor ℕ) (positions : Tensor ℝ) (n : ℕ) (b : Idx) : Prop :=
  ∀ i j : Fin n, numbers.get (i.1 :: b) ≠ 0 → numbers.get (j.1 :: b) ≠ 0 → i ≠ j →
    √env.eps ≤ dist (coords positions n b i) (coords positions n b j)

section
variable {env : Env} {numbers : Tensor ℕ} {positions c9 radii : Tensor ℝ} {n : ℕ} {B : Shape}
  {d : Damping} {cut s9 alp : ℝ} {b : Idx}

theorem distAt_coords (i j : Fin n) : distAt env positions 3 b i j =
    max (dist (coords positions n b i) (coords positions n b j)) (√env.eps) := by
  have := molOf_r (env := env) (n := n) (numbers := full [] 0) (positions := positions)
    (cn := fun _ => 0) (q := fun _ => 0) (r4r2 := positions) (rvdw := positions) (b := b) i j
  rw [← this]
  unfold Spec.Mol.r Spec.rsqrt
  show √(max (dist (coords positions n b i) (coords positions n b j) ^ 2) env.eps) = _
  rcases le_total (dist (coords positions n b i) (coords positions n b j) ^ 2) env.eps with h | h
  · rw [max_eq_right h, max_eq_right]
    exact Real.le_sqrt_of_sq_le h
  · rw [max_eq_left h, Real.sqrt_sq dist_nonneg, max_eq_left]
    exact (Real.sqrt_le_left dist_nonneg).2 h

theorem Separated.distAt (h : Separated env numbers positions n b) {i j : Fin n}
    (hi : numbers.get (i.1 :: b) ≠ 0) (hj : numbers.get (j.1 :: b) ≠ 0) (hij : i ≠ j) :
    distAt env positions 3 b i j = dist (coords positions n b i) (coords positions n b j) := by
  rw [distAt_coords, max_eq_left (h i j hi hj hij)]

theorem Separated.ne (h : Separated env numbers positions n b) {i j : Fin n}
    (hi : numbers.get (i.1 :: b) ≠ 0) (hj : numbers.get (j.1 :: b) ≠ 0) (hij : i ≠ j) :
    coords positions n b i ≠ coords positions n b j := by
  have := lt_of_lt_of_le (Real.sqrt_pos.2 env.eps_pos) (h i j hi hj hij)
  exact dist_pos.1 this

/-- All three atoms are real and pairwise different. -/
def RealTriple (numbers : Tensor ℕ) (b : Idx) {n : ℕ} (i j k : Fin n) : Prop :=
  numbers.get (i.1 :: b) ≠ 0 ∧ numbers.get (j.1 :: b) ≠ 0 ∧ numbers.get (k.1 :: b) ≠ 0 ∧
    i ≠ j ∧ i ≠ k ∧ j ≠ k

/-- Axilrod-Teller-Muto term of three atoms of entry `b`. -/
noncomputable def atmAt (positions c9 radii : Tensor ℝ) (n : ℕ) (s9 alp : ℝ) (b : Idx)
    (i j k : Fin n) : ℝ :=
  Spec.atm s9 (c9.get (k.1 :: j.1 :: i.1 :: b)) alp
    (radii.get (j.1 :: i.1 :: b) * radii.get (k.1 :: i.1 :: b) * radii.get (k.1 :: j.1 :: b))
    (coords positions n b i) (coords positions n b j) (coords positions n b k)

/-- The three-body energy of an atom is a sixth of the sum of the Axilrod-Teller-Muto terms with the
interior angles of the triangles, over all ordered triples of real atoms starting with it whose
sides `i-j` and `j-k` are within the cutoff. -/
theorem C11_energy (h : D3Shapes numbers positions c9 radii n B) (hcut : 0 ≤ cut) (hb : InB B b)
    (hsep : Separated env numbers positions n b) (i : Fin n) :
    (atmDispersion env numbers positions c9 radii cut .zero s9 alp).get (i.1 :: b) =
      (∑ j : Fin n, ∑ k : Fin n, if RealTriple numbers b i j k ∧
          dist (coords positions n b i) (coords positions n b j) ≤ cut ∧
          dist (coords positions n b j) (coords positions n b k) ≤ cut then
        atmAt positions c9 radii n s9 alp b i j k else 0) / 6 := by
  obtain ⟨-, ge⟩ := atmDispersion_eval h.num h.pos h.radii h.c9 (point9_zero (env := env) alp) cut s9
  rw [ge b i hb i.2, ← Fin.sum_univ_eq_sum_range (fun j => ∑ k ∈ Finset.range n,
    tripleEnergy env numbers positions c9 radii 3 cut s9 (zeroF env 1 (alp / 3)) b i j k)]
  congr 1
  refine Finset.sum_congr rfl fun j _ => ?_
  rw [← Fin.sum_univ_eq_sum_range (fun k =>
    tripleEnergy env numbers positions c9 radii 3 cut s9 (zeroF env 1 (alp / 3)) b i j k)]
  refine Finset.sum_congr rfl fun k _ => ?_
  unfold tripleEnergy tripleCut
  by_cases hm : RealTriple numbers b i j k
  · obtain ⟨hi, hj, hk, hij, hik, hjk⟩ := hm
    have hm' : tripleMask numbers b i j k := ⟨hi, hj, hk, Fin.val_ne_of_ne hij,
      Fin.val_ne_of_ne hik, Fin.val_ne_of_ne hjk⟩
    have nij := hsep.ne hi hj hij
    have nik := hsep.ne hi hk hik
    have njk := hsep.ne hj hk hjk
    rw [hsep.distAt hi hj hij, hsep.distAt hi hk hik, hsep.distAt hj hk hjk]
    refine ite_iff ?_ ?_ rfl
    · rw [← sq, sq_le_sq₀ dist_nonneg hcut, sq_le_sq₀ dist_nonneg hcut]
      exact and_congr_left fun _ => ⟨fun _ => ⟨hi, hj, hk, hij, hik, hjk⟩, fun _ => hm'⟩
    · have d1 := dist_pos.2 nij
      have d2 := dist_pos.2 nik
      have d3 := dist_pos.2 njk
      rw [angF_eq d1 d2 d3, zeroF_pos (by positivity), Spec.cosSides_eq_cos nij.symm nik.symm]
      have e2 := Spec.cosSides_eq_cos nij njk.symm
      have e3 := Spec.cosSides_eq_cos nik njk
      rw [dist_comm (coords positions n b j) (coords positions n b i)] at e2
      rw [dist_comm (coords positions n b k) (coords positions n b i),
        dist_comm (coords positions n b k) (coords positions n b j)] at e3
      rw [e2, e3]
      unfold atmAt Spec.atm
      ring
  · rw [if_neg, if_neg fun h => hm h.1]
    rintro ⟨⟨hi, hj, hk, hij, hik, hjk⟩, -⟩
    exact hm ⟨hi, hj, hk, fun h => hij (congrArg _ h), fun h => hik (congrArg _ h),
      fun h => hjk (congrArg _ h)⟩

end

/-! ## A concrete case: three atoms at the corners of a right-angled triangle -/

namespace Demo

/-- A right-angled triangle with sides 3, 4, 5. -/
noncomputable def tri : Tensor ℝ := ⟨none, [3, 3], fun
  | [0, 1] => 3
  | [1, 2] => 4
  | _ => 0⟩
def triNum : Tensor ℕ := ⟨none, [3], fun _ => 1⟩

theorem tri_dist (i j : Fin 3) (h : i ≠ j) :
    3 ≤ dist (coords tri 3 [] i) (coords tri 3 [] j) := by
  rw [EuclideanSpace.dist_eq]
  refine Real.le_sqrt_of_sq_le ?_
  fin_cases i <;> fin_cases j <;> simp [coords, tri, Fin.sum_univ_three, Real.dist_eq] at h ⊢ <;>
    norm_num

theorem sqrt_eps_le {x : ℝ} (hx : 1 ≤ x) : √env.eps ≤ x := by
  rw [Real.sqrt_le_left (by linarith)]
  show (1 : ℝ) / 2 ^ 52 ≤ x ^ 2
  nlinarith [show (1 : ℝ) / 2 ^ 52 ≤ 1 by norm_num]

theorem tri_separated : Separated env triNum tri 3 [] := fun i j _ _ h =>
  (sqrt_eps_le (by norm_num)).trans (tri_dist i j h)

theorem tri_shapes : D3Shapes triNum tri (full [3, 3, 3] 2) (full [3, 3] 1) 3 [] :=
  ⟨⟨rfl, rfl⟩, ⟨rfl, rfl⟩, ⟨rfl, rfl⟩, ⟨rfl, rfl⟩⟩

end Demo

example := C11_energy (cut := 40) (s9 := 1) (alp := 16) Demo.tri_shapes (by norm_num) InB_nil
  Demo.tri_separated 0

end TadDftd4
