import Verif.Lemmas.Forces
import Verif.Props.C03
import Mathlib.LinearAlgebra.CrossProduct

/-!
# Forces of an energy with symmetries

Consequences for the forces of a function of the positions that is not changed by isometries, follows
a relabelling, or does not depend on some atoms. Used for `dftd4` (C42, C65) and `Disp` objects (C70).
-/

open scoped Classical Matrix

namespace TadDftd4

section
variable {n m d : ℕ} {E : (Fin n → Spec.E3) → ℝ} {x : Fin n → Spec.E3}

/-! ## Directional derivatives from forces -/

theorem fderiv_eq_force (v : Fin n → Spec.E3) :
    fderiv ℝ E x v = -∑ i, ∑ k, v i k * Spec.force E x i k := by
  have hv : v = ∑ i, ∑ k, v i k • (Pi.single i (EuclideanSpace.single k 1) : Fin n → Spec.E3) := by
    funext j
    ext l
    simp only [Finset.sum_apply, Pi.smul_apply, PiLp.smul_apply, WithLp.ofLp_sum]
    rw [Finset.sum_eq_single j]
    · rw [Finset.sum_eq_single l]
      · simp
      · intro k _ hk; simp [hk.symm]
      · simp
    · intro i _ hi
      exact Finset.sum_eq_zero fun k _ => by simp [Pi.single_eq_of_ne hi.symm]
    · simp
  conv_lhs => rw [hv]
  simp only [map_sum, map_smul, smul_eq_mul, Spec.force]
  simp

theorem fderiv_eq_zero_of_curve {γ : ℝ → Fin n → Spec.E3} {v : Fin n → Spec.E3}
    (hd : DifferentiableAt ℝ E x) (hγ : HasDerivAt γ v 0) (h0 : γ 0 = x) (hE : ∀ t, E (γ t) = E x) :
    fderiv ℝ E x v = 0 := by
  have h1 : HasFDerivAt E (fderiv ℝ E x) (γ 0) := by rw [h0]; exact hd.hasFDerivAt
  have h2 := h1.comp_hasDerivAt (0 : ℝ) hγ
  have h3 : E ∘ γ = fun _ => E x := funext hE
  rw [h3] at h2
  exact h2.unique (hasDerivAt_const 0 (E x))

/-- Rotation by the angle `θ` in the plane of the axes `a` and `c`. -/
noncomputable def planeRot (a c : Fin 3) (θ : ℝ) : Matrix (Fin 3) (Fin 3) ℝ := fun k l =>
  if k = l then (if k = a ∨ k = c then Real.cos θ else 1)
  else if k = a ∧ l = c then -Real.sin θ else if k = c ∧ l = a then Real.sin θ else 0

theorem planeRot_mem {a c : Fin 3} (hac : a ≠ c) (θ : ℝ) :
    planeRot a c θ ∈ Matrix.orthogonalGroup (Fin 3) ℝ := by
  rw [Matrix.mem_orthogonalGroup_iff]
  have h1 := Real.cos_sq_add_sin_sq θ
  have h2 := Real.sin_sq_add_cos_sq θ
  ext k l
  rw [Matrix.mul_apply, Fin.sum_univ_three]
  simp only [Matrix.transpose_apply, planeRot]
  fin_cases a <;> fin_cases c <;> first | exact absurd rfl hac | skip
  all_goals
    fin_cases k <;> fin_cases l <;> simp <;> nlinarith

/-- The forces on all atoms of a system add up to zero. -/
theorem force_sum_zero (hE : ∀ (g : Spec.E3 ≃ᵢ Spec.E3) y, E (fun i => g (y i)) = E y)
    (hd : DifferentiableAt ℝ E x) (k : Fin 3) :
    ∑ i, Spec.force E x i k = 0 := by
  have hz : fderiv ℝ E x (fun _ => EuclideanSpace.single k 1) = 0 := by
    refine fderiv_eq_zero_of_curve (γ := fun t i => x i + t • EuclideanSpace.single k 1) hd ?_ ?_ ?_
    · rw [hasDerivAt_pi]
      intro i
      have := ((hasDerivAt_id (0 : ℝ)).smul_const
        (EuclideanSpace.single k 1 : Spec.E3)).const_add (x i)
      simpa using this
    · funext i; simp
    · intro t
      exact hE (IsometryEquiv.addRight (t • EuclideanSpace.single k 1)) x
  rw [fderiv_eq_force, neg_eq_zero] at hz
  rw [← hz]
  refine Finset.sum_congr rfl fun i _ => ?_
  rw [Finset.sum_eq_single k]
  · simp
  · intro l _ hl; simp [hl]
  · simp

/-- The torque of the forces about the origin is zero. -/
theorem torque_zero (hE : ∀ (g : Spec.E3 ≃ᵢ Spec.E3) y, E (fun i => g (y i)) = E y)
    (hd : DifferentiableAt ℝ E x) :
    ∑ i, (x i).ofLp ⨯₃ Spec.force E x i = 0 := by
  have key : ∀ a c : Fin 3, a ≠ c →
      ∑ i, (x i a * Spec.force E x i c - x i c * Spec.force E x i a) = 0 := by
    intro a c hac
    have hz : fderiv ℝ E x (fun i => x i a • EuclideanSpace.single c 1 -
        x i c • EuclideanSpace.single a 1) = 0 := by
      refine fderiv_eq_zero_of_curve (γ := fun t i => x i +
        ((Real.cos t - 1) • (x i a • EuclideanSpace.single a 1 + x i c • EuclideanSpace.single c 1)
          + Real.sin t • (x i a • EuclideanSpace.single c 1 - x i c • EuclideanSpace.single a 1)))
        hd ?_ ?_ ?_
      · rw [hasDerivAt_pi]
        intro i
        have h1 := ((Real.hasDerivAt_cos 0).sub_const 1).smul_const
          (x i a • EuclideanSpace.single a 1 + x i c • EuclideanSpace.single c 1 : Spec.E3)
        have h2 := (Real.hasDerivAt_sin 0).smul_const
          (x i a • EuclideanSpace.single c 1 - x i c • EuclideanSpace.single a 1 : Spec.E3)
        have h3 := (h1.add h2).const_add (x i)
        simpa using h3
      · funext i; simp
      · intro t
        rw [← hE (rigidMotion (planeRot a c t) (planeRot_mem hac t) 0) x]
        congr 1
        funext i
        ext l
        rw [rigidMotion_apply, Fin.sum_univ_three]
        fin_cases a <;> fin_cases c <;> first | exact absurd rfl hac | skip
        all_goals fin_cases l <;> simp [planeRot] <;> ring
    rw [fderiv_eq_force, neg_eq_zero] at hz
    rw [← hz]
    refine Finset.sum_congr rfl fun i _ => ?_
    rw [Fin.sum_univ_three]
    fin_cases a <;> fin_cases c <;> first | exact absurd rfl hac | skip
    all_goals simp <;> ring
  funext k
  simp only [Finset.sum_apply, cross_apply]
  fin_cases k
  · simpa using key 1 2 (by decide)
  · simpa using key 2 0 (by decide)
  · simpa using key 0 1 (by decide)

/-- There is no force on an atom whose position has no influence. -/
theorem force_zero_of_indep {i : Fin n} (hE : ∀ y, (∀ j, j ≠ i → y j = x j) → E y = E x) (k : Fin 3) :
    Spec.force E x i k = 0 := by
  unfold Spec.force
  by_cases hd : DifferentiableAt ℝ E x
  · rw [fderiv_eq_zero_of_curve (γ := fun t => x + t •
      (Pi.single i (EuclideanSpace.single k 1) : Fin n → Spec.E3)) hd,
      neg_zero]
    · have := ((hasDerivAt_id (0 : ℝ)).smul_const
        (Pi.single i (EuclideanSpace.single k 1) : Fin n → Spec.E3)).const_add x
      simpa using this
    · simp
    · intro t
      refine hE _ fun j hj => ?_
      simp [hj]
  · rw [fderiv_zero_of_not_differentiableAt hd]
    simp

/-- The linear part of a rigid motion, acting on all atoms. -/
noncomputable def rotAll (n : ℕ) (O : Matrix (Fin 3) (Fin 3) ℝ)
    (hO : O ∈ Matrix.orthogonalGroup (Fin 3) ℝ) : (Fin n → Spec.E3) ≃L[ℝ] (Fin n → Spec.E3) :=
  LinearEquiv.toContinuousLinearEquiv
    { toFun := fun x i => Matrix.toEuclideanLin O (x i)
      map_add' := fun x y => by funext i; simp
      map_smul' := fun c x => by funext i; simp
      invFun := fun x i => Matrix.toEuclideanLin O.transpose (x i)
      left_inv := fun x => by
        funext i
        have h1 : O.transpose * O = 1 := (Matrix.mem_orthogonalGroup_iff' (Fin 3) ℝ).1 hO
        ext k
        simp [Matrix.toLpLin_apply, Matrix.mulVec_mulVec, h1]
      right_inv := fun x => by
        funext i
        have h1 : O * O.transpose = 1 := (Matrix.mem_orthogonalGroup_iff (Fin 3) ℝ).1 hO
        ext k
        simp [Matrix.toLpLin_apply, Matrix.mulVec_mulVec, h1] }

theorem rotAll_apply {O : Matrix (Fin 3) (Fin 3) ℝ} (hO : O ∈ Matrix.orthogonalGroup (Fin 3) ℝ)
    (x : Fin n → Spec.E3) (i : Fin n) (k : Fin 3) : rotAll n O hO x i k = ∑ l, O k l * x i l := by
  show (Matrix.toEuclideanLin O (x i)) k = _
  simp [Matrix.toLpLin_apply, Matrix.mulVec, dotProduct]

/-- Forces turn with the molecule. -/
theorem force_rotation (hE' : ∀ (g : Spec.E3 ≃ᵢ Spec.E3) y, E (fun i => g (y i)) = E y)
    {O : Matrix (Fin 3) (Fin 3) ℝ}
    (hO : O ∈ Matrix.orthogonalGroup (Fin 3) ℝ) (t : Fin 3 → ℝ) {y : Fin n → Spec.E3}
    (hy : ∀ i k, y i k = ∑ l, O k l * x i l + t k) (i : Fin n) (k : Fin 3) :
    Spec.force E y i k = ∑ l, O k l * Spec.force E x i l := by

  have hE : E = (fun z => E (z + fun _ => WithLp.toLp 2 t)) ∘ rotAll n O hO := by
    funext z
    rw [← hE' (rigidMotion O hO (WithLp.toLp 2 t)) z]
    simp only [Function.comp]
    congr 1
  have hy' : y = rotAll n O hO x + fun _ => WithLp.toLp 2 t := by
    funext i
    ext k
    rw [hy i k, Pi.add_apply, PiLp.add_apply, rotAll_apply]
  have hf : ∀ v, fderiv ℝ E x v = fderiv ℝ E y (rotAll n O hO v) := by
    intro v
    conv_lhs => rw [hE, (rotAll n O hO).comp_right_fderiv, fderiv_comp_add_right, ← hy']
    rfl
  have hs : ∀ l, Spec.force E x i l = ∑ j, O j l * Spec.force E y i j := by
    intro l
    unfold Spec.force
    rw [hf, ← neg_inj, neg_neg, ← Finset.sum_neg_distrib]
    have : rotAll n O hO (Pi.single i (EuclideanSpace.single l 1)) =
        ∑ j, O j l • (Pi.single i (EuclideanSpace.single j 1) : Fin n → Spec.E3) := by
      funext a
      ext c
      rw [rotAll_apply]
      by_cases ha : a = i
      · subst ha
        simp [Finset.sum_apply, Pi.smul_apply, WithLp.ofLp_sum, Pi.single_apply]
      · simp [Finset.sum_apply, Pi.smul_apply, Pi.single_eq_of_ne ha]
    rw [this]
    simp [map_sum, map_smul]
  have h1 : O * O.transpose = 1 := (Matrix.mem_orthogonalGroup_iff (Fin 3) ℝ).1 hO
  simp_rw [hs, Finset.mul_sum]
  rw [Finset.sum_comm]
  have h2 : ∀ j, ∑ l, O k l * (O j l * Spec.force E y i j) =
      (O * O.transpose) k j * Spec.force E y i j := by
    intro j
    rw [Matrix.mul_apply, Finset.sum_mul]
    exact Finset.sum_congr rfl fun l _ => by rw [Matrix.transpose_apply]; ring
  simp_rw [h2, h1]
  simp [Matrix.one_apply]

/-- Forces follow a relabelling. -/
theorem force_relabelling {E' : (Fin n → Spec.E3) → ℝ} {π : Equiv.Perm (Fin n)}
    (hEE : ∀ z, E z = E' (z ∘ π)) (x : Fin n → Spec.E3) (i : Fin n) (k : Fin 3) :
    Spec.force E' (x ∘ π) i k = Spec.force E x (π i) k := by

  obtain ⟨L, hL⟩ : ∃ L : (Fin n → Spec.E3) ≃L[ℝ] (Fin n → Spec.E3), ∀ z, L z = z ∘ π :=
    ⟨(LinearEquiv.funCongrLeft ℝ Spec.E3 π).toContinuousLinearEquiv, fun _ => rfl⟩
  have hE : E = E' ∘ L := by funext z; rw [Function.comp, hL, hEE]
  unfold Spec.force
  rw [hE, L.comp_right_fderiv, ← hL x, ContinuousLinearMap.comp_apply]
  congr 2
  rw [ContinuousLinearEquiv.coe_coe, hL]
  funext a
  simp only [Function.comp, Pi.single_apply, π.injective.eq_iff]

/-- Forces do not depend on atoms that have no influence. -/
theorem force_castAdd {E : (Fin (m + d) → Spec.E3) → ℝ} {E' : (Fin m → Spec.E3) → ℝ}
    (hE : ∀ z, E z = E' (z ∘ Fin.castAdd d)) (x : Fin (m + d) → Spec.E3) (i : Fin m) (k : Fin 3) :
    Spec.force E x (Fin.castAdd d i) k = Spec.force E' (x ∘ Fin.castAdd d) i k := by
  obtain ⟨L, hL⟩ : ∃ L : (Fin (m + d) → Spec.E3) →L[ℝ] (Fin m → Spec.E3),
      ∀ z, L z = z ∘ Fin.castAdd d :=
    ⟨ContinuousLinearMap.pi fun j => ContinuousLinearMap.proj (Fin.castAdd d j), fun _ => rfl⟩
  have hEL : E = E' ∘ L := by funext z; rw [hE z, Function.comp, hL]
  by_cases hd : DifferentiableAt ℝ E' (x ∘ Fin.castAdd d)
  · unfold Spec.force
    have hd' : DifferentiableAt ℝ E' (L x) := by rw [hL]; exact hd
    rw [hEL, fderiv_comp x hd' L.differentiableAt, ContinuousLinearMap.fderiv, ← hL x,
      ContinuousLinearMap.comp_apply]
    congr 2
    rw [hL]
    funext a
    simp only [Function.comp, Pi.single_apply, (Fin.castAdd_injective m d).eq_iff]
  · have hd' : ¬ DifferentiableAt ℝ E x := by
      intro hx
      apply hd
      have : E' = E ∘ fun y : Fin m → Spec.E3 => Fin.append y (x ∘ Fin.natAdd m) := by
        funext y
        rw [Function.comp, hE]
        congr 1
        funext j
        simp
      rw [this]
      have hx' : Fin.append (x ∘ Fin.castAdd d) (x ∘ Fin.natAdd m) = x := by
        funext j
        refine Fin.addCases (fun j => ?_) (fun j => ?_) j <;> simp
      refine DifferentiableAt.comp _ (by rw [hx']; exact hx) ?_
      rw [differentiableAt_pi]
      intro j
      refine Fin.addCases (fun j => ?_) (fun j => ?_) j
      · simp only [Fin.append_left]
        exact differentiableAt_apply j _
      · simp only [Fin.append_right]
        exact differentiableAt_const _
    unfold Spec.force
    rw [fderiv_zero_of_not_differentiableAt hd, fderiv_zero_of_not_differentiableAt hd']
    simp

end
end TadDftd4
