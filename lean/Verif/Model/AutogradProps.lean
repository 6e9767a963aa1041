import Verif.Model.AutogradDisp

/-!
# Back-propagation through `get_properties`

The graph `torch.autograd` records for polarizabilities and C6 coefficients. Rules and conventions are those
of `Model/Autograd.lean`. Coordination numbers and charges come from external functions, see `GradSys`.
-/

open scoped Classical

namespace TadDftd4.Tape

variable (G : GradCfg) {n : ℕ} (X : GradSys n)

/-- `disp.py:149-197` `get_properties`, `model/base.py:286-302` `get_polarizabilities`: sum of the
polarizabilities with factors `s`, the `grad_outputs` of `torch.autograd.grad`. -/
noncomputable def alphaSum (al : ℕ → ℕ → ℕ → ℝ) (s : Fin n → ℝ) : Tape :=
  sum n fun i => mul (const (s i)) (pol G X al true i 0)

/-- `disp.py:149-197` `get_properties`, `model/d4.py:285-289` `get_atomic_c6`: sum of the C6 coefficients with
factors `t` -/
noncomputable def c6Sum (rc : ℕ → ℕ → ℕ → ℕ → ℝ) (t : Fin n → Fin n → ℝ) : Tape :=
  sum n fun i => sum n fun j => mul (const (t i j)) (c6 G X rc (qIn X true) i j)

/-- `disp.py:149-197` `get_properties`: all four results with factors `u`, `v`, `t` and `s` -/
noncomputable def properties (rc : ℕ → ℕ → ℕ → ℕ → ℝ) (al : ℕ → ℕ → ℕ → ℝ) (u v : Fin n → ℝ)
    (t : Fin n → Fin n → ℝ) (s : Fin n → ℝ) : Tape :=
  add (add (add (sum n fun i => mul (const (u i)) (X.cn i)) (sum n fun i => mul (const (v i)) (X.q i)))
    (c6Sum G X rc t)) (alphaSum G X al s)

end TadDftd4.Tape
