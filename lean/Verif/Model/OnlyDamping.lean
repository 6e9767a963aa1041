import Verif.Model.Disp

/-!
# The keyword `only_damping` as entry of a parameter dictionary

`damping_function(distances, radii, order, **param)` (`twobody.py:161, 166, 188`) passes every entry of the
dictionary to `Damping.__call__`, whose fourth parameter is `only_damping` (`damping/functions.py:116-121`). Three-body
terms read single entries of the dictionary (`threebody.py:233-234, 252-253, 269`) and not this one.
-/

open scoped Classical

namespace TadDftd4

open Tensor

/-- The entry `only_damping`: absent, the object `True`, or any other object (`1`, `torch.tensor(True)`, ...).
`functions.py:374` tests `only_damping is True`. -/
inductive OnlyKey
  | absent
  | isTrue
  | other
  deriving DecidableEq

/-- `only_damping is True`, `functions.py:121, 374` -/
def OnlyKey.flag : OnlyKey → Bool
  | .isTrue => true
  | _ => false

section
variable (env : Env) (k : OnlyKey)

/-- `damping_function(distances, radii, order, **param)`, `twobody.py:161, 166, 188`; see `Damping.callParam`. -/
noncomputable def Damping.callParamO (d : Damping) (dist rad : Tensor ℝ) (order : ℕ) (p : Param) : Tensor ℝ :=
  if p.extra ≠ [] then Tensor.fail .type else d.call env dist rad order k.flag p.kw

/-- `twobody.py:159-168, 186-190`; see `tDamp`. -/
noncomputable def tDampO (numbers : Tensor ℕ) (positions : Tensor ℝ) (p : Param)
    (radii : Tensor ℝ) (d : Damping) (cutoff : ℝ) (order : ℕ) : Tensor ℝ :=
  let mask := realPairs numbers
  let dist := pairDistances env numbers positions
  where_ (mask.and (dist.le (scalar cutoff))) (d.callParamO env k dist radii order p) (scalar 0)

/-- `twobody.py:89-201` `dispersion2`; see `dispersion2`. -/
noncomputable def dispersion2O (numbers : Tensor ℕ) (positions : Tensor ℝ) (p : Param)
    (c6 r4r2 : Tensor ℝ) (rvdw : Option (Tensor ℝ) := none) (d : Damping := .rational)
    (cutoff : Option ℝ := none) (asMatrix : Bool := false) : Tensor ℝ :=
  let cutoff := cutoff.getD Defaults.disp2Cutoff
  let dist := pairDistances env numbers positions
  let qq := qqT r4r2
  let c8 := c6 * qq
  let radii := radii2 d r4r2 rvdw
  let t6 := tDampO env k numbers positions p radii d cutoff 6
  let t8 := tDampO env k numbers positions p radii d cutoff 8
  let e6 := if asMatrix then c6 * t6 else (c6 * t6).sumLast
  let e8 := if asMatrix then c8 * t8 else (c8 * t8).sumLast
  let s6 := p.s6.tensor Defaults.s6
  let s8 := p.s8.tensor Defaults.s8
  let edisp := s6 * e6 + s8 * e8
  let edisp := match p.s10 with
    | .absent => edisp
    | s10 =>
      let c10 := c6 * qq.map (· ^ 2) * scalar 49 / scalar 40
      let t10 := tDampO env k numbers positions p radii d cutoff 10
      let e10 := if asMatrix then c10 * t10 else (c10 * t10).sumLast
      edisp.after (c10.after (t10.after (edisp + s10.tensor Defaults.s10 * e10)))
  let result := if asMatrix then -edisp else scalar (-0.5) * edisp
  dist.after (c8.after (radii.after (t6.after (t8.after result))))

variable (T : Tables) (ext : Ext)

/-- `calculate` of the terms: `twobody.py:60-86`, `threebody.py:210-235`; see `Term.calculate`. Three-body terms do not
read the entry. -/
noncomputable def Term.calculateO (t : Term) (numbers : Tensor ℕ) (positions : Tensor ℝ) (p : Param)
    (cn : Tensor ℝ) (model : RefModel) (q : Option (Tensor ℝ)) (r4r2 rvdw : Tensor ℝ)
    (cutoff : Cutoff) : Tensor ℝ :=
  match t.cls with
  | .twoBody =>
    let weights := model.weights env T (some cn) (t.charges q)
    let c6 := model.atomicC6 weights
    dispersion2O env k numbers positions p c6 r4r2 (some rvdw) t.damping (some cutoff.disp2)
  | _ => t.calculate env T numbers positions p cn model q r4r2 rvdw cutoff

/-- `base.py:416-431`; see `sumTerms`. -/
noncomputable def sumTermsO (terms : List Term) (numbers : Tensor ℕ) (positions : Tensor ℝ)
    (p : Param) (cn : Tensor ℝ) (model : RefModel) (q : Option (Tensor ℝ)) (r4r2 rvdw : Tensor ℝ)
    (cutoff : Cutoff) : Tensor ℝ :=
  terms.foldl (fun energy t =>
    energy + t.calculateO env k T numbers positions p cn model q r4r2 rvdw cutoff)
    (full numbers.shape 0)

/-- `base.py:285-431` `Disp.calculate`; see there. -/
noncomputable def Disp.calculateO (d : Disp) (numbers : Tensor ℕ) (positions : Tensor ℝ)
    (charge : Tensor ℝ) (p : Param) (o : CalcOpts := {}) : Except Err (Tensor ℝ) := do
  ensure (numbers.shape = positions.shape.tail) .value
  let cutoff := o.cutoff.getD {}
  let model ← d.getModel env T ext numbers
  ensure (∀ rcov, o.rcov = some rcov → numbers.shape = rcov.shape) .value
  let r4r2 ← (o.r4r2.getD (getR4R2 T numbers)).check
  ensure (numbers.shape = r4r2.shape) .value
  let rvdw ← (o.rvdw.getD (getRvdw T numbers)).check
  ensure (numbers.shape = rvdw.shape.tail) .value
  let cn ← (d.cnFn numbers positions d.counting).check
  let q ← d.charges ext numbers positions charge cutoff o.q
  (sumTermsO env k T d.terms numbers positions p cn model q r4r2 rvdw cutoff).check

/-- `disp.py:44-146` `dftd4`; see there. -/
noncomputable def dftd4O (numbers : Tensor ℕ) (positions charge : Tensor ℝ) (p : Param)
    (o : DftOpts := {}) : Except Err (Tensor ℝ) := do
  let d ← Disp.new ext .base o.model none (some (o.cnFunction.getD ext.cnD4))
    (some (o.counting.getD ext.erfCount))
  let d := d.register ⟨.twoBody, o.damping, true⟩
  let d := d.register ⟨.d4ATMApprox, .zero, false⟩
  d.calculateO env k T ext numbers positions charge p o.opts

end

end TadDftd4
