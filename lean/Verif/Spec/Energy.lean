import Mathlib.Analysis.InnerProductSpace.PiL2

/-!
# Specification: dispersion energy of one molecule

Independent of the tensor model: everything is indexed by `Fin n`, written as in the literature
(Caldeweyher et al., J. Chem. Phys. 150, 154122 (2019); Axilrod-Teller-Muto three-body term).
The only trace of the implementation is `ε`, the regularisation `√(max x ε)` of square roots
(`ε = 0` is the textbook formula, and `ε > 0` is equal to it as soon as the argument is `≥ ε`).
-/

open scoped Classical

namespace TadDftd4.Spec

/-- Three-dimensional Euclidean space. -/
abbrev E3 := EuclideanSpace ℝ (Fin 3)

/-- What the dispersion energy of a molecule with `n` atoms (some of which may be padding, `Z = 0`)
depends on: elements, positions, coordination numbers, partial charges, `√(½ √Z r⁴/r²)` and pairwise
van der Waals radii. -/
structure Mol (n : ℕ) where
  Z : Fin n → ℕ
  pos : Fin n → E3
  cn : Fin n → ℝ
  q : Fin n → ℝ
  Q : Fin n → ℝ
  rvdw : Fin n → Fin n → ℝ

/-- Regularised square root. -/
noncomputable def rsqrt (ε x : ℝ) : ℝ := √(max x ε)

/-- Data of an atom entering its C6 coefficients. -/
structure AtomData where
  Z : ℕ
  cn : ℝ
  q : ℝ

/-- Which radius enters the damping function. -/
inductive Radius | r4r2 | rvdw

/-- All settings of a calculation. -/
structure Settings where
  ε : ℝ
  /-- C6 coefficient of two atoms -/
  c6 : AtomData → AtomData → ℝ
  /-- C9 coefficient of three atoms (only used by the exact three-body term) -/
  c9x : AtomData → AtomData → AtomData → ℝ
  /-- damped `1/R^n` as function of distance and critical radius argument -/
  f6 : ℝ → ℝ → ℝ
  f8 : ℝ → ℝ → ℝ
  f10 : ℝ → ℝ → ℝ
  /-- three-body damping factor as function of (product of radii, product of distances) -/
  f9 : ℝ → ℝ → ℝ
  radius : Radius
  s6 : ℝ
  s8 : ℝ
  s10 : ℝ
  s9 : ℝ
  a1 : ℝ
  a2 : ℝ
  rs9 : ℝ
  cut2 : ℝ
  cut3 : ℝ

variable {n : ℕ} (S : Settings) (M : Mol n)

/-- Distance of two atoms. -/
noncomputable def Mol.r (ε : ℝ) (i j : Fin n) : ℝ := rsqrt ε (dist (M.pos i) (M.pos j) ^ 2)

def Mol.atom (i : Fin n) : AtomData := ⟨M.Z i, M.cn i, M.q i⟩
/-- The same atom without charge. -/
def Mol.neutral (i : Fin n) : AtomData := ⟨M.Z i, M.cn i, 0⟩

/-- Radius argument of the two-body damping function. -/
noncomputable def rad (i j : Fin n) : ℝ :=
  match S.radius with
  | .r4r2 => 3 * M.Q i * M.Q j
  | .rvdw => M.rvdw i j

/-- `s6 C6 f6 + s8 C8 f8 + s10 C10 f10` with `C8 = 3 Q_i Q_j C6`, `C10 = 49/40 (3 Q_i Q_j)² C6`;
`A` is the data of the atoms entering the C6 coefficients. -/
noncomputable def pairTerm (A : Fin n → AtomData) (i j : Fin n) : ℝ :=
  let C6 := S.c6 (A i) (A j)
  let C8 := C6 * (3 * M.Q i * M.Q j)
  let C10 := C6 * (3 * M.Q i * M.Q j) ^ 2 * 49 / 40
  S.s6 * (C6 * S.f6 (M.r S.ε i j) (rad S M i j)) + S.s8 * (C8 * S.f8 (M.r S.ε i j) (rad S M i j)) +
    S.s10 * (C10 * S.f10 (M.r S.ε i j) (rad S M i j))

/-- Two-body energy of an atom: half of each of its pair terms within the cutoff. -/
noncomputable def e2 (A : Fin n → AtomData) (i : Fin n) : ℝ :=
  -(1 / 2) * ∑ j, if M.Z i ≠ 0 ∧ M.Z j ≠ 0 ∧ i ≠ j ∧ M.r S.ε i j ≤ S.cut2 then pairTerm S M A i j
    else 0

/-- Approximate `C9 = √|C6_ij C6_ik C6_jk|`. -/
noncomputable def c9 (A : Fin n → AtomData) (i j k : Fin n) : ℝ :=
  rsqrt S.ε |S.c6 (A i) (A j) * S.c6 (A i) (A k) * S.c6 (A j) (A k)|

/-- Critical radius `R0 = a1 √(3 Q_i Q_j) + a2`. -/
noncomputable def R0 (i j : Fin n) : ℝ := S.a1 * rsqrt S.ε (3 * M.Q i * M.Q j) + S.a2

/-- Scaled van der Waals radius. -/
noncomputable def R0vdw (i j : Fin n) : ℝ := S.rs9 * M.rvdw i j

/-- Cosine of the angle enclosed by the sides `x`, `y` of a triangle with third side `z`. -/
noncomputable def cosSides (x y z : ℝ) : ℝ := (x ^ 2 + y ^ 2 - z ^ 2) / (2 * x * y)

/-- Axilrod-Teller-Muto term of a triple, with C9 coefficients `C` and critical radii `R`. -/
noncomputable def tripleTerm (C : Fin n → Fin n → Fin n → ℝ) (R : Fin n → Fin n → ℝ)
    (i j k : Fin n) : ℝ :=
  let x := M.r S.ε i j
  let y := M.r S.ε i k
  let z := M.r S.ε j k
  S.s9 * C i j k * S.f9 (R i j * R i k * R j k) (x * y * z) *
    ((3 * cosSides x y z * cosSides x z y * cosSides y z x + 1) / (x * y * z) ^ 3)

/-- The sides `i-j` and `j-k` of the ordered triple are tested against the cutoff (the side `i-k`
is not, see C10). -/
def withinCut3 (i j k : Fin n) : Prop := M.r S.ε i j ≤ S.cut3 ∧ M.r S.ε j k ≤ S.cut3

/-- Three-body energy of an atom: one sixth of each ordered triple starting with it. -/
noncomputable def e3 (C : Fin n → Fin n → Fin n → ℝ) (R : Fin n → Fin n → ℝ) (i : Fin n) : ℝ :=
  (1 / 6) * ∑ j, ∑ k, if M.Z i ≠ 0 ∧ M.Z j ≠ 0 ∧ M.Z k ≠ 0 ∧ i ≠ j ∧ i ≠ k ∧ j ≠ k ∧
    withinCut3 S M i j k then tripleTerm S M C R i j k else 0

/-- The D4 dispersion energy of an atom: two-body term with charges, three-body term with
approximate C9 coefficients of the uncharged atoms and Becke-Johnson radii. -/
noncomputable def energy (i : Fin n) : ℝ :=
  e2 S M M.atom i + e3 S M (c9 S M.neutral) (R0 S M) i

end TadDftd4.Spec
