import Verif.Model.Tensor
import Mathlib.Analysis.SpecialFunctions.Exp

/-!
# Floating point effects the code deals with, and the `storch` helpers

`/repo/src/tad_dftd4/utils.py:208-224` (`is_exceptional`), and the functions of the external
package `tad_mctc` used by the code (`storch.sqrt`, `storch.divide`, `storch.cdist`,
`batch.real_pairs`, `batch.real_triples`); the latter are modelled from their documentation, their
source is not part of the repository.
-/

open scoped Classical

namespace TadDftd4

/-- The floating point environment: machine epsilon, largest number, and the effect `fl` of
rounding/underflow on the exponentials and powers of `weight_references`. `fl` is arbitrary apart
from not producing negative numbers from non-negative ones
(`torch.finfo`, `twobody.py:144`, `threebody.py:102`, `utils.py:is_exceptional`). -/
structure Env where
  eps : ℝ
  eps_pos : 0 < eps
  fmax : ℝ
  one_le_fmax : 1 ≤ fmax
  fl : ℝ → ℝ
  fl_nonneg : ∀ x, 0 ≤ x → 0 ≤ fl x

/-- IEEE numbers without rounding (IEEE 754; `model/d4.py:207, 214`). -/
inductive FP
  | nan
  | pinf
  | ninf
  | fin (x : ℝ)

namespace FP

noncomputable instance : Inhabited FP := ⟨nan⟩

/-- The real number of a finite value (special values: 0, never used). -/
def toReal : FP → ℝ
  | fin x => x
  | _ => 0

/-- See `is_exceptional` in `utils.py` -/
def IsFin : FP → Prop
  | fin _ => True
  | _ => False

/-- IEEE division; a zero denominator is `+0`
(`expw / norm`, `model/d4.py:207`; `qref / (qmod - eps)`, `model/base.py:329`). -/
noncomputable def div : FP → FP → FP
  | fin a, fin b =>
    if b ≠ 0 then fin (a / b) else if 0 < a then pinf else if a < 0 then ninf else nan
  | fin _, pinf => fin 0
  | fin _, ninf => fin 0
  | pinf, fin b => if 0 ≤ b then pinf else ninf
  | ninf, fin b => if 0 ≤ b then ninf else pinf
  | _, _ => nan

/-- `model/base.py:363` -/
noncomputable def neg : FP → FP
  | fin a => fin (-a)
  | pinf => ninf
  | ninf => pinf
  | nan => nan

/-- `q + zeff`, `model/d4.py:225` -/
noncomputable def add : FP → FP → FP
  | fin a, fin b => fin (a + b)
  | nan, _ => nan
  | _, nan => nan
  | pinf, ninf => nan
  | ninf, pinf => nan
  | pinf, _ => pinf
  | _, pinf => pinf
  | ninf, _ => ninf
  | _, ninf => ninf

/-- `1.0 - scale`, `model/base.py:333` -/
noncomputable def sub (a b : FP) : FP := add a (neg b)

/-- `gam * (..)`, `model/base.py:329` -/
noncomputable def mul : FP → FP → FP
  | fin a, fin b => fin (a * b)
  | nan, _ => nan
  | _, nan => nan
  | fin a, s => if 0 < a then s else if a < 0 then neg s else nan
  | s, fin a => if 0 < a then s else if a < 0 then neg s else nan
  | pinf, s => s
  | ninf, s => neg s

/-- `exp`; overflow is not modelled (`model/base.py:329-334`). -/
noncomputable def exp : FP → FP
  | fin a => fin (Real.exp a)
  | pinf => pinf
  | ninf => fin 0
  | nan => nan

/-- `utils.py:208-224` `is_exceptional`: `isnan(x) | (x > finfo.max)`. -/
def isExceptional (fmax : ℝ) : FP → Prop
  | nan => True
  | pinf => True
  | ninf => False
  | fin x => fmax < x

end FP

namespace Env

variable (env : Env)

/-- `storch.sqrt(x)` = `sqrt(clamp(x, min=eps))` (`threebody.py:255, 319`). -/
noncomputable def ssqrt (x : ℝ) : ℝ := Real.sqrt (max x env.eps)

/-- `storch.divide(x, y)`: a zero denominator is replaced by eps
(`damping/functions.py:370, 378, 434`, `model/base.py:363`). -/
noncomputable def sdiv (x y : ℝ) : ℝ := x / (if y = 0 then env.eps else y)

/-- `storch.cdist(x, x, p=2)` (quadratic expansion `|x|² + |y|² - 2 x·y`, then `storch.sqrt`).
Shape `(..., n, c)` to `(..., n, n)` (`twobody.py:143`, `threebody.py:116`). -/
noncomputable def cdist (x : Tensor ℝ) : Tensor ℝ where
  err := orErr x.err (match x.shape with
    | _ :: _ :: _ => none
    | _ => some .runtime)
  shape := match x.shape with
    | _ :: n :: s => n :: n :: s
    | _ => []
  get idx := match x.shape, idx with
    | c :: _ :: _, j :: i :: b =>
      env.ssqrt ((∑ k ∈ Finset.range c, x.get (k :: i :: b) * x.get (k :: i :: b))
        + (∑ k ∈ Finset.range c, x.get (k :: j :: b) * x.get (k :: j :: b))
        - 2 * ∑ k ∈ Finset.range c, x.get (k :: i :: b) * x.get (k :: j :: b))
    | _, _ => 0

end Env

/-- `tad_mctc.batch.mask.real_atoms`: `numbers != 0` (`model/d4s.py:309`). -/
def realAtoms (numbers : Tensor ℕ) : Tensor Prop := numbers.map (· ≠ 0)

/-- Both atoms are real and different (`twobody.py:140`, `threebody.py:98`). -/
def pairMask (numbers : Tensor ℕ) (b : Idx) (i j : ℕ) : Prop :=
  numbers.get (i :: b) ≠ 0 ∧ numbers.get (j :: b) ≠ 0 ∧ i ≠ j

/-- All three atoms are real and pairwise different (`threebody.py:99`). -/
def tripleMask (numbers : Tensor ℕ) (b : Idx) (i j k : ℕ) : Prop :=
  numbers.get (i :: b) ≠ 0 ∧ numbers.get (j :: b) ≠ 0 ∧ numbers.get (k :: b) ≠ 0 ∧
    i ≠ j ∧ i ≠ k ∧ j ≠ k

/-- `tad_mctc.batch.real_pairs(numbers, mask_diagonal=True)`: both atoms real and different
(`twobody.py:140`, `threebody.py:98`). -/
def realPairs (numbers : Tensor ℕ) : Tensor Prop where
  err := orErr numbers.err (match numbers.shape with
    | _ :: _ => none
    | _ => some .index)
  shape := match numbers.shape with
    | n :: s => n :: n :: s
    | _ => []
  get idx := match idx with
    | j :: i :: b => pairMask numbers b i j
    | _ => False

/-- `tad_mctc.batch.real_triples(numbers, mask_diagonal=True, mask_self=True)`: all three atoms
real and pairwise different (`threebody.py:99`). -/
def realTriples (numbers : Tensor ℕ) : Tensor Prop where
  err := orErr numbers.err (match numbers.shape with
    | _ :: _ => none
    | _ => some .index)
  shape := match numbers.shape with
    | n :: s => n :: n :: n :: s
    | _ => []
  get idx := match idx with
    | k :: j :: i :: b => tripleMask numbers b i j k
    | _ => False

section eval
variable {numbers : Tensor ℕ} {n : ℕ} {s : Shape}

@[simp] theorem realAtoms_err : (realAtoms numbers).err = numbers.err := rfl
@[simp] theorem realAtoms_shape : (realAtoms numbers).shape = numbers.shape := rfl
@[simp] theorem realAtoms_get (i : Idx) : (realAtoms numbers).get i = (numbers.get i ≠ 0) := rfl
theorem realPairs_err (h : numbers.shape = n :: s) : (realPairs numbers).err = numbers.err := by
  simp [realPairs, h]
theorem realPairs_shape (h : numbers.shape = n :: s) : (realPairs numbers).shape = n :: n :: s := by
  simp [realPairs, h]
@[simp] theorem realPairs_get (j i : ℕ) (b : Idx) : (realPairs numbers).get (j :: i :: b) =
    pairMask numbers b i j := rfl
theorem realTriples_err (h : numbers.shape = n :: s) : (realTriples numbers).err = numbers.err := by
  simp [realTriples, h]
theorem realTriples_shape (h : numbers.shape = n :: s) :
    (realTriples numbers).shape = n :: n :: n :: s := by
  simp [realTriples, h]
@[simp] theorem realTriples_get (k j i : ℕ) (b : Idx) : (realTriples numbers).get (k :: j :: i :: b) =
    tripleMask numbers b i j k := rfl

variable {env : Env} {x : Tensor ℝ} {c : ℕ}
theorem cdist_err (h : x.shape = c :: n :: s) : (env.cdist x).err = x.err := by
  simp [Env.cdist, h]
theorem cdist_shape (h : x.shape = c :: n :: s) : (env.cdist x).shape = n :: n :: s := by
  simp [Env.cdist, h]
/-- The entry of `cdist` is the clamped Euclidean distance. -/
theorem cdist_get (h : x.shape = c :: n :: s) (j i : ℕ) (b : Idx) :
    (env.cdist x).get (j :: i :: b) =
      env.ssqrt (∑ k ∈ Finset.range c, (x.get (k :: i :: b) - x.get (k :: j :: b)) ^ 2) := by
  simp only [Env.cdist, h]
  congr 1
  rw [Finset.mul_sum, ← Finset.sum_add_distrib, ← Finset.sum_sub_distrib]
  refine Finset.sum_congr rfl fun k _ => ?_
  ring

end eval

end TadDftd4
