import Verif.Spec.D4
import Verif.Spec.External
import Mathlib.Analysis.Calculus.FDeriv.Basic

/-!
# Specification: geometries at which the dispersion energy is smooth

The energy is a piecewise smooth function of the positions. The pieces are separated by the surfaces
where a distance crosses a cutoff, where two atoms (nearly) coincide, and where one of the two other
regularisations (charge in `zeta`, square root of C9) sets in.
-/

namespace TadDftd4.Spec

variable {n : ℕ}

/-- The molecule does not lie on one of the surfaces listed above; only real atoms count. -/
structure Generic (S : Settings) (C : C6Settings) (M : Mol n) : Prop where
  /-- no two atoms coincide -/
  apart : ∀ i j, M.Z i ≠ 0 → M.Z j ≠ 0 → i ≠ j → S.ε < dist (M.pos i) (M.pos j) ^ 2
  /-- no distance equals a cutoff -/
  cut2 : ∀ i j, M.Z i ≠ 0 → M.Z j ≠ 0 → i ≠ j → dist (M.pos i) (M.pos j) ≠ S.cut2
  cut3 : ∀ i j, M.Z i ≠ 0 → M.Z j ≠ 0 → i ≠ j → dist (M.pos i) (M.pos j) ≠ S.cut3
  /-- no atom has lost its (effective) nuclear charge -/
  charge : ∀ i, M.Z i ≠ 0 → C.ε < M.q i + C.T.zeff (M.Z i)
  zeff : ∀ i, M.Z i ≠ 0 → C.ε < C.T.zeff (M.Z i)
  /-- the square root in the C9 coefficient is not at its threshold -/
  c9 : ∀ i j k, M.Z i ≠ 0 → M.Z j ≠ 0 → M.Z k ≠ 0 → i ≠ j → i ≠ k → j ≠ k →
    |S.c6 (M.neutral i) (M.neutral j) * S.c6 (M.neutral i) (M.neutral k) *
      S.c6 (M.neutral j) (M.neutral k)| ≠ S.ε
  /-- critical radii are not negative -/
  radii : ∀ i j, M.Z i ≠ 0 → M.Z j ≠ 0 → i ≠ j → 0 ≤ R0 S M i j

/-- The force on atom `i`: component `k` is `-∂E/∂x_ik`. -/
noncomputable def force (E : (Fin n → E3) → ℝ) (x : Fin n → E3) (i : Fin n) (k : Fin 3) : ℝ :=
  -fderiv ℝ E x (Pi.single i (EuclideanSpace.single k 1))

/-- Coordination numbers and charges of real atoms do not depend on where padding atoms are. -/
def CN.IgnoresPaddingPositions (f : CN) : Prop :=
  ∀ n (Z : Fin n → ℕ) (pos pos' : Fin n → E3), (∀ j, Z j ≠ 0 → pos j = pos' j) →
    ∀ i, Z i ≠ 0 → f n Z pos i = f n Z pos' i

def EEQ.IgnoresPaddingPositions (f : EEQ) : Prop :=
  ∀ n c (Z : Fin n → ℕ) (pos pos' : Fin n → E3) Q, (∀ j, Z j ≠ 0 → pos j = pos' j) →
    ∀ i, Z i ≠ 0 → f n c Z pos Q i = f n c Z pos' Q i

end TadDftd4.Spec
