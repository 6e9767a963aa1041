import Verif.Lemmas.Setup
import Mathlib.Analysis.InnerProductSpace.Adjoint
import Mathlib.LinearAlgebra.UnitaryGroup

/-!
# C03: energies do not depend on the frame of reference
-/

open scoped Classical

namespace TadDftd4

open Tensor

section
variable {env : Env} {T : Tables} {ext : Ext} {numbers : Tensor ℕ}
  {positions positions' charge : Tensor ℝ} {p : Param} {o : DftOpts} {n : ℕ} {B : Shape}
  {R : RefCfg} {cn : Spec.CN} {eeq : Spec.EEQ} {P : Spec.D4Par}

/-- Moving system `b` by any isometry of space leaves all its energies unchanged. -/
theorem C03_isometry (h : Call env T ext numbers positions charge p o n B R cn eeq P)
    (hpos : positions'.Ok (3 :: n :: B)) (hcn : cn.Invariant) (heeq : eeq.Invariant) :
    ∃ e e', dftd4 env T ext numbers positions charge p o = .ok e ∧
      dftd4 env T ext numbers positions' charge p o = .ok e' ∧
      ∀ b, InB B b → ∀ g : Spec.E3 ≃ᵢ Spec.E3,
        (∀ i, coords positions' n b i = g (coords positions n b i)) →
        ∀ i : Fin n, e'.get (i.1 :: b) = e.get (i.1 :: b) := by
  have h' : Call env T ext numbers positions' charge p o n B R cn eeq P :=
    { h with args := { h.args with pos := hpos } }
  obtain ⟨e, h1, -, h3⟩ := h.eval
  obtain ⟨e', h1', -, h3'⟩ := h'.eval
  refine ⟨e, e', h1, h1', fun b hb g hg i => ?_⟩
  have hc : coords positions' n b = fun k => g (coords positions n b k) := by funext k; exact hg k
  rw [h3' b hb i, h3 b hb i]
  refine Spec.energy_congr_pos ?_ ?_ ?_ ?_ ?_ ?_ i
  · rfl
  · funext j
    show cn n _ (coords positions' n b) j = cn n _ (coords positions n b) j
    rw [hc]; exact hcn n g _ _ j
  · funext j
    show (match o.opts.q with
      | some q => q.get (j.1 :: b)
      | none => eeq n _ _ (coords positions' n b) _ j) = (match o.opts.q with
      | some q => q.get (j.1 :: b)
      | none => eeq n _ _ (coords positions n b) _ j)
    cases o.opts.q with
    | some x => rfl
    | none => simp only []; rw [hc]; exact heeq n g _ _ _ _ j
  · rfl
  · rfl
  · intro j k
    show dist (coords positions' n b j) (coords positions' n b k) = _
    rw [hg, hg, g.dist_eq]
    rfl

/-- The isometry `x ↦ O x + t` of an orthogonal matrix (rotation or reflection) and a translation. -/
noncomputable def rigidMotion (O : Matrix (Fin 3) (Fin 3) ℝ)
    (hO : O ∈ Matrix.orthogonalGroup (Fin 3) ℝ) (t : Spec.E3) : Spec.E3 ≃ᵢ Spec.E3 :=
  have iso : ∀ x y : Spec.E3, inner ℝ (Matrix.toEuclideanLin O x) (Matrix.toEuclideanLin O y) =
      inner ℝ x y := by
    intro x y
    have h1 : O.transpose * O = 1 := (Matrix.mem_orthogonalGroup_iff' (Fin 3) ℝ).1 hO
    rw [← LinearMap.adjoint_inner_right, ← Matrix.toEuclideanLin_conjTranspose_eq_adjoint]
    have : Matrix.toEuclideanLin O.conjTranspose (Matrix.toEuclideanLin O y) = y := by
      have hc : O.conjTranspose = O.transpose := by
        ext i j; simp
      rw [hc]
      ext i
      simp [Matrix.toLpLin_apply, Matrix.mulVec_mulVec, h1]
    rw [this]
  ((LinearMap.isometryOfInner (Matrix.toEuclideanLin O) iso).toLinearIsometryEquiv
    rfl).toIsometryEquiv.trans (IsometryEquiv.addRight t)

theorem rigidMotion_apply (O : Matrix (Fin 3) (Fin 3) ℝ)
    (hO : O ∈ Matrix.orthogonalGroup (Fin 3) ℝ) (t x : Spec.E3) (k : Fin 3) :
    rigidMotion O hO t x k = ∑ l, O k l * x l + t k := by
  show (Matrix.toEuclideanLin O x + t) k = _
  simp [Matrix.toLpLin_apply, Matrix.mulVec, dotProduct]

/-- Rotating, reflecting and translating the positions leaves all energies unchanged. -/
theorem C03_rigid_motion (h : Call env T ext numbers positions charge p o n B R cn eeq P)
    (hpos : positions'.Ok (3 :: n :: B)) (hcn : cn.Invariant) (heeq : eeq.Invariant)
    {O : Matrix (Fin 3) (Fin 3) ℝ} (hO : O ∈ Matrix.orthogonalGroup (Fin 3) ℝ) (t : Fin 3 → ℝ)
    (hrot : ∀ b, InB B b → ∀ i : Fin n, ∀ k : Fin 3, positions'.get (k.1 :: i.1 :: b) =
      ∑ l : Fin 3, O k l * positions.get (l.1 :: i.1 :: b) + t k) :
    ∃ e e', dftd4 env T ext numbers positions charge p o = .ok e ∧
      dftd4 env T ext numbers positions' charge p o = .ok e' ∧
      ∀ b, InB B b → ∀ i : Fin n, e'.get (i.1 :: b) = e.get (i.1 :: b) := by
  obtain ⟨e, e', h1, h2, h3⟩ := C03_isometry h hpos hcn heeq
  refine ⟨e, e', h1, h2, fun b hb i => h3 b hb (rigidMotion O hO (WithLp.toLp 2 t)) (fun i => ?_) i⟩
  ext k
  rw [rigidMotion_apply]
  exact hrot b hb i k

end

/-! ## A concrete case: reflection and translation of water -/

namespace Demo

theorem cn_invariant : cn.Invariant := by
  intro n g Z pos i
  unfold cn
  simp only [g.dist_eq]

theorem eeq_invariant : eeq.Invariant := by
  intro n g c Z pos Q i
  rfl

/-- Mirrored at the plane `x = 0` and shifted along `z`. -/
noncomputable def positionsM : Tensor ℝ where
  err := none
  shape := [3, 3, 2]
  get
    | k :: ib => (if k = 0 then -1 else 1) * positions.get (k :: ib) + (if k = 2 then 7 else 0)
    | _ => 0

end Demo

example : ∃ e e', dftd4 Demo.env Demo.T Demo.ext Demo.numbers Demo.positions Demo.charge Demo.param
    = .ok e ∧ dftd4 Demo.env Demo.T Demo.ext Demo.numbers Demo.positionsM Demo.charge Demo.param =
    .ok e' ∧ e'.get [1, 0] = e.get [1, 0] := by
  obtain ⟨e, e', h1, h2, h3⟩ := C03_rigid_motion (positions' := Demo.positionsM) Demo.call
    ⟨rfl, rfl⟩ Demo.cn_invariant Demo.eeq_invariant
    (O := Matrix.diagonal fun k => if k = 0 then -1 else 1) (by
      rw [Matrix.mem_orthogonalGroup_iff]
      rw [Matrix.diagonal_transpose, Matrix.diagonal_mul_diagonal,
        ← Matrix.diagonal_one]
      congr 1
      funext k
      by_cases hk : k = 0 <;> simp [hk])
    (fun k => if k = 2 then 7 else 0) (by
      intro b _ i k
      fin_cases k <;> simp [Demo.positionsM, Matrix.diagonal])
  exact ⟨e, e', h1, h2, h3 [0] (by simp [InB]) 1⟩

end TadDftd4
