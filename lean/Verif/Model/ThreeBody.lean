import Verif.Model.TwoBody

/-!
# Three-body dispersion: `/repo/src/tad_dftd4/dispersion/threebody.py`
-/

open scoped Classical

namespace TadDftd4

open Tensor

section
variable (env : Env)

/-- `threebody.py:113-120`: squared distances, `eps²` for padding and the diagonal. -/
noncomputable def dist2T (numbers : Tensor ℕ) (positions : Tensor ℝ) : Tensor ℝ :=
  (where_ (realPairs numbers) (env.cdist positions) (scalar env.eps)).map (· ^ 2)

/-- `x_ij`, `x_ik`, `x_jk` of a pair tensor as triple tensors (`threebody.py:106-108, 122-124`). -/
def ijT (x : Tensor ℝ) : Tensor ℝ := x.unsqueeze 0
/-- `unsqueeze(-2)`, `threebody.py:107, 123` -/
def ikT (x : Tensor ℝ) : Tensor ℝ := x.unsqueeze 1
/-- `unsqueeze(-3)`, `threebody.py:108, 124` -/
def jkT (x : Tensor ℝ) : Tensor ℝ := x.unsqueeze 2

/-- `threebody.py:105-109, 122-126, 133-145`: damping factor; an exception in the arguments of the
damping function comes before one of the call. -/
noncomputable def atmDamp (numbers : Tensor ℕ) (positions radii : Tensor ℝ) (d : Damping)
    (alp : ℝ) : Tensor ℝ :=
  let mask := realTriples numbers
  let r0 := ijT radii * ikT radii * jkT radii
  let d2 := dist2T env numbers positions
  let r2 := ijT d2 * ikT d2 * jkT d2
  let r1 := r2.map Real.sqrt
  let rr := where_ mask r1 (scalar 1)
  mask.after (r0.after (rr.after
    (where_ mask (d.call env r0 rr 9 true { alp := some (alp / 3) }) (scalar 0))))

/-- `threebody.py:122-160`: angular term with cutoff. Note that the code compares `r2jk` twice. -/
noncomputable def atmAng (numbers : Tensor ℕ) (positions : Tensor ℝ) (cutoff : ℝ) : Tensor ℝ :=
  let mask := realTriples numbers
  let d2 := dist2T env numbers positions
  let r2ij := ijT d2
  let r2ik := ikT d2
  let r2jk := jkT d2
  let r2 := r2ij * r2ik * r2jk
  let r1 := r2.map Real.sqrt
  let r3 := where_ mask (r1 * r2) (scalar env.eps)
  let r5 := where_ mask (r2 * r3) (scalar env.eps)
  let s := where_ mask
    ((r2ij + r2jk - r2ik) * (r2ij - r2jk + r2ik) * (-r2ij + r2jk + r2ik)) (scalar 0)
  let cutoff2 := scalar (cutoff * cutoff)
  where_ (((mask.and (r2ij.le cutoff2)).and (r2jk.le cutoff2)).and (r2jk.le cutoff2))
    (scalar 0.375 * s / r5 + scalar 1 / r3) (scalar 0)

/-- `threebody.py:54-163` `get_atm_dispersion` with `s9`, `alp` given as numbers. -/
noncomputable def atmDispersion (numbers : Tensor ℕ) (positions c9 radii : Tensor ℝ)
    (cutoff : ℝ) (d : Damping := .zero) (s9 : ℝ := Defaults.s9) (alp : ℝ := Defaults.alp) :
    Tensor ℝ :=
  let fdamp := atmDamp env numbers positions radii d alp
  let ang := atmAng env numbers positions cutoff
  let energy := ang * fdamp * scalar s9 * c9
  fdamp.after (energy.sumLast.sumLast / scalar 6)

/-- `threebody.py:241-256` `RadiiBJMixin.get_radii` -/
noncomputable def radiiBJ (p : Param) (r4r2 : Tensor ℝ) : Tensor ℝ :=
  p.a1.tensor Defaults.a1 * (qqT r4r2).map env.ssqrt + p.a2.tensor Defaults.a2

/-- `threebody.py:259-270` `RadiiVDWMixin.get_radii` -/
noncomputable def radiiVDW (p : Param) (rvdw : Tensor ℝ) : Tensor ℝ :=
  p.rs9.tensor Defaults.rs9 * rvdw

/-- `threebody.py:305-321` `C9ApproxMixin.get_c9` after the C6 coefficients -/
noncomputable def c9Approx (c6 : Tensor ℝ) : Tensor ℝ :=
  (ijT c6 * ikT c6 * jkT c6).map (fun x => env.ssqrt |x|)

/-- `threebody.py:298-302` `C9ExactMixin.get_c9` after the weighted polarizabilities -/
noncomputable def c9Exact (aiw : Tensor ℝ) : Tensor ℝ :=
  let aiwi := (aiw.unsqueeze 1).unsqueeze 1
  let aiwj := (aiw.unsqueeze 2).unsqueeze 1
  let aiwk := (aiw.unsqueeze 2).unsqueeze 2
  trapzdAtm (aiwi * aiwj * aiwk)

end

end TadDftd4
