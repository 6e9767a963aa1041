import Verif.Model.Rounded
import Verif.Model.Utils

/-!
# Floating point evaluation of reference polarizabilities and reference C6 coefficients

Expressions (`Rounded.Ex`) for `_get_alpha` (`/repo/src/tad_dftd4/model/base.py:367-418`) and `trapzd`
(`/repo/src/tad_dftd4/utils.py:33-94`). Input are only the tables, the numbers of which are rounded once.
-/

namespace TadDftd4.Rounded

/-- Input of `_get_alpha` for one element: tables, `ga`, `gc`, charges of the secondary systems, `eps` of
the data type, element (`base.py:379-399`). -/
structure AlphaInput where
  T : Tables
  ga : ℝ
  gc : ℝ
  refsq : ℕ → ℕ → ℝ
  ε : ℝ
  Z : ℕ

namespace AlphaInput
open Ex
variable (X : AlphaInput)

/-- `base.py:401-411` with `_zeta` (`base.py:326-335`); the reference charge is `zeff` -/
noncomputable def zetaS (r : ℕ) : Ex :=
  let s := X.T.refsys X.Z r
  let zeff := inp (X.T.zeff s) 1
  let gam := mul (inp (X.T.gam s) 1) (const X.gc)
  let qmod := add (signed (X.refsq X.Z r) 1) zeff
  let scale := exp (mul gam (sub (const 1) (div zeff (sub qmod (const X.ε)))))
  if 0 < s then
    sel qmod (const 0) (exp (const X.ga)) (exp (mul (const X.ga) (sub (const 1) scale)))
  else const 0

/-- `base.py:413` -/
noncomputable def aiw (r w : ℕ) : Ex :=
  let s := X.T.refsys X.Z r
  mul (mul (inp (X.T.secscale s) 1) (inp (X.T.secalpha s w) 1)) (X.zetaS r)

/-- `base.py:414` -/
noncomputable def diff (r w : ℕ) : Ex :=
  sub (inp (X.T.refalpha X.Z r w) 1) (mul (inp (X.T.refscount X.Z r) 1) (X.aiw r w))

/-- `base.py:415-418`; `torch.where(alpha > 0.0, alpha, zero)` -/
noncomputable def alpha (r w : ℕ) : Ex :=
  clampMin (mul (inp (X.T.refascale X.Z r) 1) (X.diff r w)) 0

end AlphaInput

/-- A product of three numbers in an order that `einsum` may choose (`utils.py:91-94`). -/
def prod3 (o : Fin 3) (a b c : Ex) : Ex :=
  match o with
  | 0 => .mul (.mul a b) c
  | 1 => .mul (.mul a c) b
  | 2 => .mul a (.mul b c)

/-- `utils.py:50-94`: reference C6 coefficients of reference `a` of `X` and `b` of `Y`, products evaluated
in the order `o`. `thopi` is computed in double precision and then converted. -/
noncomputable def refC6 (o : Fin 3) (X Y : AlphaInput) (a b : ℕ) : Ex :=
  .mul (.inp thopi 2) (.sum nfreq fun w =>
    prod3 o (.inp (trapzWeights.getD w 0) 1) (X.alpha a w) (Y.alpha b w))

end TadDftd4.Rounded
