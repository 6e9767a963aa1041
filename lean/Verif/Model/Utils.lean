import Verif.Model.Numeric
import Mathlib.Analysis.SpecialFunctions.Trigonometric.Basic

/-!
# `/repo/src/tad_dftd4/utils.py`: Casimir--Polder integration
-/

namespace TadDftd4

open Tensor Tensor.Lbl

/-- Number of frequencies and of reference systems per atom (`reference/d4/params.py`) (`utils.py:52-80`). -/
abbrev nfreq : ℕ := 23
/-- `reference/d4/params.py` -/
abbrev nref : ℕ := 7

/-- The integration weights, `utils.py:52-80`, `119-147`, `175-203` (the three literals in the code
are identical). The third literal is `7.5000000000000010e-002`. -/
noncomputable def trapzWeights : List ℝ :=
  [2.4999500000000000e-002, 4.9999500000000000e-002, 7.5000000000000010e-002,
   0.1, 0.1, 0.1, 0.1, 0.1, 0.1, 0.1, 0.1, 0.15, 0.2, 0.2, 0.2, 0.2, 0.35, 0.5, 0.75, 1.0,
   1.75, 2.5, 1.25]

/-- `weights` as a tensor of shape `(23,)` (`utils.py:52-80`). -/
noncomputable def wTensor : Tensor ℝ :=
  ⟨none, [nfreq], fun i => trapzWeights.getD (i.headD 0) 0⟩

/-- `thopi = 3.0 / 3.14159…`; the literal for pi is taken as the real number (`utils.py:50`). -/
noncomputable def thopi : ℝ := 3 / Real.pi

/-- `utils.py:33-94` `trapzd(pol1, pol2)`: `"w,...iaw,...jbw->...ijab"` -/
noncomputable def trapzd (pol1 : Tensor ℝ) (pol2 : Option (Tensor ℝ) := none) : Tensor ℝ :=
  scalar thopi * einsum
    [⟨[w], false, wTensor⟩, ⟨[w, a, i], true, pol1⟩, ⟨[w, b, j], true, pol2.getD pol1⟩]
    [b, a, j, i]

/-- `utils.py:97-152` `trapzd_noref(pol1, pol2)`: `"w,...iw,...jw->...ij"` -/
noncomputable def trapzdNoref (pol1 : Tensor ℝ) (pol2 : Option (Tensor ℝ) := none) : Tensor ℝ :=
  scalar thopi * einsum
    [⟨[w], false, wTensor⟩, ⟨[w, i], true, pol1⟩, ⟨[w, j], true, pol2.getD pol1⟩] [j, i]

/-- `utils.py:155-205` `trapzd_atm(pol)`: `"...ijkw,w->...ijk"` -/
noncomputable def trapzdAtm (pol : Tensor ℝ) : Tensor ℝ :=
  scalar thopi * einsum [⟨[w, k, j, i], true, pol⟩, ⟨[w], false, wTensor⟩] [k, j, i]

end TadDftd4
