import Verif.Spec.Forces
import Mathlib.MeasureTheory.Integral.IntervalIntegral.Basic
import Mathlib.LinearAlgebra.Matrix.ToLin

/-!
# Coordination numbers and charges of D4

The source of `tad_mctc` and `tad_multicharge` is not part of the repository. This file writes down, for
one molecule, the published formulas of the functions that `dftd4` takes from there: coordination numbers
that count neighbours with an error function, and electronegativity equilibration (EEQ) charges. They
serve to show that the assumptions of the theorems on external functions are met by the real ones.
-/

open scoped Classical

namespace TadDftd4.Spec

/-- The Gauss error function. -/
noncomputable def erf (x : ℝ) : ℝ := 2 / √Real.pi * ∫ t in (0 : ℝ)..x, Real.exp (-t ^ 2)

/-- Parameters of a coordination number: covalent radii, factors of pairs of elements (in D4 a function of
their electronegativities, in EEQ one), steepness of the counting function. -/
structure CNPar where
  rcov : ℕ → ℝ
  factor : ℕ → ℕ → ℝ
  steep : ℝ

/-- Contribution of a neighbour at distance `r`. -/
noncomputable def CNPar.count (C : CNPar) (Z Z' : ℕ) (r : ℝ) : ℝ :=
  C.factor Z Z' * ((1 + erf (-C.steep * (r / (C.rcov Z + C.rcov Z') - 1))) / 2)

/-- Coordination numbers: sum over the neighbours up to the cutoff. -/
noncomputable def cnErf (C : CNPar) (cutoff : ℝ) : CN := fun _ Z pos i =>
  ∑ j, if Z i ≠ 0 ∧ Z j ≠ 0 ∧ i ≠ j ∧ dist (pos i) (pos j) ≤ cutoff then
    C.count (Z i) (Z j) (dist (pos i) (pos j)) else 0

/-- Coordination numbers of EEQ are smoothly cut off at `m`. -/
noncomputable def cap (m x : ℝ) : ℝ := Real.log (1 + Real.exp m) - Real.log (1 + Real.exp (m - x))

/-- Parameters of EEQ: electronegativity, hardness, effect of the coordination number, radius; the
coordination number and its maximum. -/
structure EEQPar where
  chi : ℕ → ℝ
  eta : ℕ → ℝ
  kappa : ℕ → ℝ
  rad : ℕ → ℝ
  cn : CNPar
  cnMax : ℝ

variable {n : ℕ}

/-- Coulomb interaction of the charges of two atoms. -/
noncomputable def EEQPar.coulomb (E : EEQPar) (Z : Fin n → ℕ) (pos : Fin n → E3) (i j : Fin n) : ℝ :=
  if i = j then E.eta (Z i) + √(2 / Real.pi) / E.rad (Z i)
  else erf (dist (pos i) (pos j) / √(E.rad (Z i) ^ 2 + E.rad (Z j) ^ 2)) / dist (pos i) (pos j)

/-- Electronegativity of an atom in its environment, with a minus sign. -/
noncomputable def EEQPar.drive (E : EEQPar) (cutoff : ℝ) (Z : Fin n → ℕ) (pos : Fin n → E3) (i : Fin n) :
    ℝ :=
  -E.chi (Z i) + E.kappa (Z i) * √(cap E.cnMax (cnErf E.cn cutoff n Z pos i))

/-- Charges of the atoms: the electronegativities of all atoms are equal (to `μ`), the charges add up to
the total charge; padding atoms have none. -/
def EEQPar.IsCharges (E : EEQPar) (cutoff : ℝ) (Z : Fin n → ℕ) (pos : Fin n → E3) (Q : ℝ) (q : Fin n → ℝ) :
    Prop :=
  (∃ μ, ∀ i, Z i ≠ 0 → (∑ j, if Z j ≠ 0 then E.coulomb Z pos i j * q j else 0) + μ = E.drive cutoff Z pos i) ∧
    (∑ j, if Z j ≠ 0 then q j else 0) = Q ∧ ∀ i, Z i = 0 → q i = 0

/-- The charge equations have exactly one solution. -/
def EEQPar.Solvable (E : EEQPar) (cutoff : ℝ) (Z : Fin n → ℕ) (pos : Fin n → E3) (Q : ℝ) : Prop :=
  ∃! q, E.IsCharges cutoff Z pos Q q

/-- The charges, where the equations determine them. -/
noncomputable def eeqCharges (E : EEQPar) : EEQ := fun _ c Z pos Q =>
  if h : E.Solvable c Z pos Q then h.choose else 0

end TadDftd4.Spec
