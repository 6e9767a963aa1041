import Verif.Model.ParamTensor

/-!
# Cutoffs given as tensors

`Cutoff` (`/repo/src/tad_dftd4/cutoff.py:69-91`) takes numbers or tensors for the cutoffs and stores
tensors. This file follows the cutoffs of the two- and three-body energies as tensors of any shape
through the terms, together with damping parameters given as tensors (`Model/ParamTensor.lean`). The
cutoff of the EEQ charges is handed to the external charge function and stays a number; the one of the
coordination numbers is not read by `Disp.calculate`.
-/

open scoped Classical

namespace TadDftd4

open Tensor

/-- `cutoff.py:36-91` `Cutoff` with tensors for the dispersion energies. -/
structure TCutoff where
  disp2 : Tensor ℝ := scalar Defaults.disp2Cutoff
  disp3 : Tensor ℝ := scalar Defaults.disp3Cutoff
  cn : ℝ := Defaults.cnCutoff
  cnEeq : ℝ := Defaults.cnEeqCutoff

section
variable (env : Env) (T : Tables) (ext : Ext)

/-- `twobody.py:159-168, 186-190`: damped `1/R^n` with cutoff, `distances <= cutoff` broadcasting. -/
noncomputable def tDampC (numbers : Tensor ℕ) (positions : Tensor ℝ) (p : TParam)
    (radii : Tensor ℝ) (d : Damping) (cutoff : Tensor ℝ) (order : ℕ) : Tensor ℝ :=
  let mask := realPairs numbers
  let dist := pairDistances env numbers positions
  where_ (mask.and (dist.le cutoff)) (d.callParamT env dist radii order p) (scalar 0)

/-- `twobody.py:89-201` `dispersion2`; energies per atom (`as_matrix=False`). -/
noncomputable def dispersion2C (numbers : Tensor ℕ) (positions : Tensor ℝ) (p : TParam)
    (c6 r4r2 : Tensor ℝ) (rvdw : Option (Tensor ℝ)) (d : Damping) (cutoff : Tensor ℝ) : Tensor ℝ :=
  let dist := pairDistances env numbers positions
  let qq := qqT r4r2
  let c8 := c6 * qq
  let radii := radii2 d r4r2 rvdw
  let t6 := tDampC env numbers positions p radii d cutoff 6
  let t8 := tDampC env numbers positions p radii d cutoff 8
  let e6 := (c6 * t6).sumLast
  let e8 := (c8 * t8).sumLast
  let s6 := p.s6.tensor Defaults.s6
  let s8 := p.s8.tensor Defaults.s8
  let edisp := s6 * e6 + s8 * e8
  let edisp := match p.s10 with
    | .absent => edisp
    | s10 =>
      let c10 := c6 * qq.map (· ^ 2) * scalar 49 / scalar 40
      let t10 := tDampC env numbers positions p radii d cutoff 10
      let e10 := (c10 * t10).sumLast
      edisp.after (c10.after (t10.after (edisp.iadd (s10.tensor Defaults.s10 * e10))))
  let result := scalar (-0.5) * edisp
  dist.after (c8.after (radii.after (t6.after (t8.after result))))

/-- `threebody.py:122-160`: angular term with cutoff, `cutoff2 = cutoff * cutoff` and the comparisons
broadcasting. -/
noncomputable def atmAngC (numbers : Tensor ℕ) (positions : Tensor ℝ) (cutoff : Tensor ℝ) :
    Tensor ℝ :=
  let mask := realTriples numbers
  let d2 := dist2T env numbers positions
  let r2ij := ijT d2
  let r2ik := ikT d2
  let r2jk := jkT d2
  let r2 := r2ij * r2ik * r2jk
  let r1 := r2.map Real.sqrt
  let r3 := where_ mask (r1 * r2) (scalar env.eps)
  let r5 := where_ mask (r2 * r3) (scalar env.eps)
  let s := where_ mask
    ((r2ij + r2jk - r2ik) * (r2ij - r2jk + r2ik) * (-r2ij + r2jk + r2ik)) (scalar 0)
  let cutoff2 := cutoff * cutoff
  where_ (((mask.and (r2ij.le cutoff2)).and (r2jk.le cutoff2)).and (r2jk.le cutoff2))
    (scalar 0.375 * s / r5 + scalar 1 / r3) (scalar 0)

/-- `threebody.py:54-163` `get_atm_dispersion`. -/
noncomputable def atmDispersionC (numbers : Tensor ℕ) (positions c9 radii : Tensor ℝ)
    (cutoff : Tensor ℝ) (d : Damping) (s9 alp : Tensor ℝ) : Tensor ℝ :=
  let fdamp := atmDampT env numbers positions radii d alp
  let ang := atmAngC env numbers positions cutoff
  let energy := ang * fdamp * s9 * c9
  fdamp.after (energy.sumLast.sumLast / scalar 6)

/-- `calculate` of the terms: `twobody.py:60-86`, `threebody.py:210-235`. -/
noncomputable def Term.calculateC (t : Term) (numbers : Tensor ℕ) (positions : Tensor ℝ)
    (p : TParam) (cn : Tensor ℝ) (model : RefModel) (q : Option (Tensor ℝ)) (r4r2 rvdw : Tensor ℝ)
    (cutoff : TCutoff) : Tensor ℝ :=
  match t.cls with
  | .twoBody =>
    let weights := model.weights env T (some cn) (t.charges q)
    let c6 := model.atomicC6 weights
    dispersion2C env numbers positions p c6 r4r2 (some rvdw) t.damping cutoff.disp2
  | _ =>
    let c9 := t.c9 env T model cn q
    let radii := t.radiiT env p r4r2 rvdw
    match p.s9.arg Defaults.s9, p.alp.arg Defaults.alp with
    | some s9, some alp =>
      c9.after (radii.after
        (atmDispersionC env numbers positions c9 radii cutoff.disp3 t.damping s9 alp))
    | _, _ => c9.after (radii.after (Tensor.fail .type))

/-- `base.py:416-431`: sum of the term energies. -/
noncomputable def sumTermsC (terms : List Term) (numbers : Tensor ℕ) (positions : Tensor ℝ)
    (p : TParam) (cn : Tensor ℝ) (model : RefModel) (q : Option (Tensor ℝ)) (r4r2 rvdw : Tensor ℝ)
    (cutoff : TCutoff) : Tensor ℝ :=
  terms.foldl (fun energy t =>
    energy + t.calculateC env T numbers positions p cn model q r4r2 rvdw cutoff)
    (full numbers.shape 0)

/-- `base.py:285-431` `Disp.calculate` with the argument `cutoff` given as `cutoff` (and not by
`o.cutoff`). -/
noncomputable def Disp.calculateC (d : Disp) (numbers : Tensor ℕ) (positions : Tensor ℝ)
    (charge : Tensor ℝ) (p : TParam) (cutoff : TCutoff) (o : CalcOpts := {}) :
    Except Err (Tensor ℝ) := do
  ensure (numbers.shape = positions.shape.tail) .value
  let model ← d.getModel env T ext numbers
  ensure (∀ rcov, o.rcov = some rcov → numbers.shape = rcov.shape) .value
  let r4r2 ← (o.r4r2.getD (getR4R2 T numbers)).check
  ensure (numbers.shape = r4r2.shape) .value
  let rvdw ← (o.rvdw.getD (getRvdw T numbers)).check
  ensure (numbers.shape = rvdw.shape.tail) .value
  let cn ← (d.cnFn numbers positions d.counting).check
  let q ← d.charges ext numbers positions charge { cnEeq := cutoff.cnEeq } o.q
  (sumTermsC env T d.terms numbers positions p cn model q r4r2 rvdw cutoff).check

/-- `disp.py:44-146` `dftd4` with the argument `cutoff` given as `cutoff`. -/
noncomputable def dftd4C (numbers : Tensor ℕ) (positions charge : Tensor ℝ) (p : TParam)
    (cutoff : TCutoff) (o : DftOpts := {}) : Except Err (Tensor ℝ) := do
  let d ← Disp.new ext .base o.model none (some (o.cnFunction.getD ext.cnD4))
    (some (o.counting.getD ext.erfCount))
  let d := d.register ⟨.twoBody, o.damping, true⟩
  let d := d.register ⟨.d4ATMApprox, .zero, false⟩
  d.calculateC env T ext numbers positions charge p cutoff o.opts

end

end TadDftd4
