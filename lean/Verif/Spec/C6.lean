import Verif.Spec.Energy
import Verif.Model.RefModel

/-!
# Specification: C6 coefficients of DFT-D4

Caldeweyher et al., J. Chem. Phys. 150, 154122 (2019), eqs. 3-9. Only the record `Tables` (the
reference data) is shared with the model of the code.
-/

open scoped Classical

namespace TadDftd4.Spec

/-- Settings of the reference model. -/
structure C6Settings where
  /-- data of the reference systems -/
  T : Tables
  /-- charges of the reference atoms and of the subtracted secondary systems -/
  qref : ℕ → ℕ → ℝ
  qsec : ℕ → ℕ → ℝ
  /-- maximum charge scaling height and steepness -/
  ga : ℝ
  gc : ℝ
  /-- exponent of the Gaussians, function of the elements of the atom and of its partner -/
  wf : ℕ → ℕ → ℝ
  /-- quadrature weights of the frequency integration -/
  quad : ℕ → ℝ
  /-- shift of the charge in the denominator of `zeta` (0 in the publication) -/
  ε : ℝ

variable (C : C6Settings)

/-- Charge scaling `ζ(z, z_ref)` with hardness `η`. -/
noncomputable def zeta (ε ga η zref z : ℝ) : ℝ :=
  if z ≤ 0 ∨ z = ε then Real.exp ga
  else Real.exp (ga * (1 - Real.exp (η * (1 - zref / (z - ε)))))

/-- Sum of `N` Gaussians in `x`. -/
noncomputable def gaussians (w : ℝ) (N : ℕ) (x : ℝ) : ℝ :=
  ∑ k ∈ Finset.range N, Real.exp (-((k + 1 : ℕ) * w * x ^ 2))

/-- Gaussian of reference `r` of element `Z` at coordination number `cn`; zero without Gaussians. -/
noncomputable def gaussRef (w : ℝ) (Z : ℕ) (cn : ℝ) (r : ℕ) : ℝ :=
  gaussians w (C.T.refc Z r) (cn - C.T.refcn Z r)

/-- Normalised weight of reference `r`. -/
noncomputable def weight (w : ℝ) (Z : ℕ) (cn : ℝ) (r : ℕ) : ℝ :=
  gaussRef C w Z cn r / ∑ s ∈ Finset.range nref, gaussRef C w Z cn s

/-- Charge scaling of reference `r` of an atom. -/
noncomputable def zetaRef (A : AtomData) (r : ℕ) : ℝ :=
  zeta C.ε C.ga (C.T.gam A.Z * C.gc) (C.qref A.Z r + C.T.zeff A.Z) (A.q + C.T.zeff A.Z)

/-- Polarizability of reference `r` of element `Z` at frequency `ω`: the (scaled) polarizability of
the reference system minus that of its charge-scaled hydrogen or secondary atoms, not negative. -/
noncomputable def alphaRef (Z r ω : ℕ) : ℝ :=
  let s := C.T.refsys Z r
  let sec := if 0 < s then C.T.secscale s * C.T.secalpha s ω *
      zeta C.ε C.ga (C.T.gam s * C.gc) (C.T.zeff s) (C.qsec Z r + C.T.zeff s)
    else 0
  max 0 (C.T.refascale Z r * (C.T.refalpha Z r ω - C.T.refscount Z r * sec))

/-- Polarizability of an atom next to a partner of element `Zp`. -/
noncomputable def alpha (A : AtomData) (Zp ω : ℕ) : ℝ :=
  ∑ r ∈ Finset.range nref,
    zetaRef C A r * weight C (C.wf A.Z Zp) A.Z A.cn r * alphaRef C A.Z r ω

/-- Casimir-Polder integral `3/π ∫ α_A(iω) α_B(iω) dω`. -/
noncomputable def c6 (A A' : AtomData) : ℝ :=
  3 / Real.pi * ∑ ω ∈ Finset.range nfreq, C.quad ω * (alpha C A A'.Z ω * alpha C A' A.Z ω)

/-- Triple-dipole coefficient `3/π ∫ α_A(iω) α_B(iω) α_C(iω) dω`. (In D4 the exponents of the Gaussians
do not depend on a partner.) -/
noncomputable def c9Triple (A A' A'' : AtomData) : ℝ :=
  3 / Real.pi * ∑ ω ∈ Finset.range nfreq,
    C.quad ω * (alpha C A 0 ω * alpha C A' 0 ω * alpha C A'' 0 ω)

end TadDftd4.Spec
