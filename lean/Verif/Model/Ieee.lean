import Verif.Model.Rounded
import Verif.Model.Autograd

/-!
# Binary floating point formats

`Model/Rounded.lean` describes machines that make a relative error of at most `u` in every operation.
Numbers of a real machine have a largest and a smallest exponent, so results can overflow to infinity or
lose digits by underflow. Here the same expressions (`dispersion/twobody.py:89-201`,
`threebody.py:54-163`) are evaluated in a binary format of IEEE 754: addition, subtraction,
multiplication, division and square roots are rounded to a nearest number of the format, powers and
exponentials have a relative error of at most `u` as long as neither overflow nor underflow occurs, and
infinities and NaN are propagated.

Simplifications: there is only one zero; a result that is larger than the largest number may be rounded
to it or to infinity, and so may the result of a power or an exponential that is larger than half of it;
only one of the two branches of `torch.where` is evaluated (the other does not matter for the
result).
-/

open scoped Classical

namespace TadDftd4.Rounded

/-- A binary format: number of digits, exponents of the last digit (`positions.dtype`, `threebody.py:91`). -/
structure Fmt where
  p : ℕ
  emin : ℤ
  emax : ℤ

/-- `torch.float32` -/
def binary32 : Fmt := ⟨24, -149, 104⟩
/-- `torch.float64` -/
def binary64 : Fmt := ⟨53, -1074, 971⟩

namespace Fmt
variable (F : Fmt)

/-- Finite numbers of the format (IEEE 754, 3.3). -/
def Num (x : ℝ) : Prop :=
  ∃ m e : ℤ, |m| < 2 ^ F.p ∧ F.emin ≤ e ∧ e ≤ F.emax ∧ x = m * (2 : ℝ) ^ e

/-- Largest number, `torch.finfo(dtype).max`. -/
noncomputable def big : ℝ := (2 ^ F.p - 1) * (2 : ℝ) ^ F.emax

/-- Smallest normal number, `torch.finfo(dtype).tiny`. -/
noncomputable def small : ℝ := (2 : ℝ) ^ (F.emin + F.p - 1)

/-- `z` is a nearest number (IEEE 754, 4.3.1). -/
def Nearest (x z : ℝ) : Prop := F.Num z ∧ ∀ y, F.Num y → |z - x| ≤ |y - x|

/-- Rounded result of an operation with exact result `x`; overflow (IEEE 754, 7.4). -/
def Rnd (x : ℝ) (r : FP) : Prop :=
  (|x| ≤ F.big → ∃ z, r = .fin z ∧ F.Nearest x z) ∧
  (F.big < x → r = .fin F.big ∨ r = .pinf) ∧ (x < -F.big → r = .fin (-F.big) ∨ r = .ninf)

/-- Result of a power or an exponential with exact result `x` (accuracy of the functions of PyTorch); a
result close to the largest number may be infinite. -/
def Func (u x : ℝ) (r : FP) : Prop :=
  (x = 0 → r = .fin 0) ∧
  (F.small ≤ |x| → |x| ≤ F.big / 2 → ∃ z, r = .fin z ∧ F.Num z ∧ Fl u x z) ∧
  (|x| < F.small → ∃ z, r = .fin z ∧ F.Num z ∧ |z| ≤ F.small ∧ 0 ≤ x * z) ∧
  (F.big / 2 < x → r = .pinf ∨ ∃ z, r = .fin z ∧ F.Num z ∧ Fl u x z) ∧
  (x < -(F.big / 2) → r = .ninf ∨ ∃ z, r = .fin z ∧ F.Num z ∧ Fl u x z)

/-- Rounding of a result that can be infinite or NaN. -/
def Round (s r : FP) : Prop := (∀ x, s = .fin x → F.Rnd x r) ∧ ((∀ x, s ≠ .fin x) → r = s)

/-- As `Round`, for functions. -/
def RoundF (u : ℝ) (s r : FP) : Prop := (∀ x, s = .fin x → F.Func u x r) ∧ ((∀ x, s ≠ .fin x) → r = s)

/-- `torch.sum`: numbers are added in pairs, in any order (`twobody.py:174-175`, `threebody.py:163`). -/
inductive SumRuns {n : ℕ} (v : Fin n → FP) : Multiset (Fin n) → FP → Prop
  | one (i : Fin n) : SumRuns v {i} (v i)
  | add {a b : Multiset (Fin n)} {s t r : FP} : SumRuns v a s → SumRuns v b t → F.Round (s.add t) r →
      SumRuns v (a + b) r

end Fmt

/-- Comparison; NaN is not comparable (`twobody.py:160`, `threebody.py:155-157`). -/
def fpLe : FP → FP → Prop
  | .nan, _ => False
  | _, .nan => False
  | .ninf, _ => True
  | _, .pinf => True
  | .fin x, .fin y => x ≤ y
  | _, _ => False

/-- `e.Runs F u r`: evaluating `e` in the format `F` can give `r`. Inputs are numbers of the format
(operations of `twobody.py:134-201`, `threebody.py:91-163`). -/
inductive Ex.Runs (F : Fmt) (u : ℝ) : Ex → FP → Prop
  | inp {x z : ℝ} {k : ℕ} : Near u k x z → F.Num z → Runs F u (.inp x k) (.fin z)
  | const (c : ℝ) : Runs F u (.const c) (.fin c)
  | neg {a : Ex} {r : FP} : Runs F u a r → Runs F u (.neg a) r.neg
  | add {a b : Ex} {r s t : FP} : Runs F u a r → Runs F u b s → F.Round (r.add s) t →
      Runs F u (.add a b) t
  | sub {a b : Ex} {r s t : FP} : Runs F u a r → Runs F u b s → F.Round (r.sub s) t →
      Runs F u (.sub a b) t
  | mul {a b : Ex} {r s t : FP} : Runs F u a r → Runs F u b s → F.Round (r.mul s) t →
      Runs F u (.mul a b) t
  | div {a b : Ex} {r s t : FP} : Runs F u a r → Runs F u b s → F.Round (r.div s) t →
      Runs F u (.div a b) t
  | sqrt {a : Ex} {r t : FP} : Runs F u a r → F.Round r.sqrt t → Runs F u (.sqrt a) t
  | abs {a : Ex} {r : FP} : Runs F u a r → Runs F u (.abs a) r.abs
  | clampMin {a : Ex} {c : ℝ} {r : FP} : Runs F u a r → Runs F u (.clampMin a c) (r.clampMin c)
  | npow {a : Ex} {k : ℕ} {r t : FP} : Runs F u a r → F.RoundF u (r.npow k) t → Runs F u (.npow a k) t
  | rpow {a : Ex} {p q y : ℝ} {k : ℕ} {r t : FP} : Runs F u a r → Fl (k * u) (p / q) y →
      F.RoundF u (r.tpow (.fin y)) t → Runs F u (.rpow a p q k) t
  | exp {a : Ex} {r t : FP} : Runs F u a r → F.RoundF u r.exp t → Runs F u (.exp a) t
  | sum {n : ℕ} {f : Fin n → Ex} {v : Fin n → FP} {t : FP} : (∀ i, Runs F u (f i) (v i)) →
      F.SumRuns v Finset.univ.val t → Runs F u (.sum n f) t
  | sel_le {a b e f : Ex} {r s t : FP} : Runs F u a r → Runs F u b s → fpLe r s → Runs F u e t →
      Runs F u (.sel a b e f) t
  | sel_gt {a b e f : Ex} {r s t : FP} : Runs F u a r → Runs F u b s → ¬ fpLe r s → Runs F u f t →
      Runs F u (.sel a b e f) t

end TadDftd4.Rounded
