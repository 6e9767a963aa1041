import Verif.Model.Damping
import Verif.Model.RefModel

/-!
# Two-body dispersion: `/repo/src/tad_dftd4/dispersion/twobody.py`
-/

open scoped Classical

namespace TadDftd4

open Tensor

/-- Statement sequencing: an exception raised by an earlier statement comes first
(Python semantics; e.g. `twobody.py:150-157`). -/
def Tensor.after {α β : Type} (t : Tensor α) (u : Tensor β) : Tensor β :=
  { u with err := orErr t.err u.err }

@[simp] theorem Tensor.after_err {α β : Type} (t : Tensor α) (u : Tensor β) :
    (t.after u).err = orErr t.err u.err := rfl
@[simp] theorem Tensor.after_shape {α β : Type} (t : Tensor α) (u : Tensor β) :
    (t.after u).shape = u.shape := rfl
@[simp] theorem Tensor.after_get {α β : Type} (t : Tensor α) (u : Tensor β) (i : Idx) :
    (t.after u).get i = u.get i := rfl

section
variable (env : Env)

/-- `twobody.py:140-145`: distances with `eps` for padding and the diagonal. -/
noncomputable def pairDistances (numbers : Tensor ℕ) (positions : Tensor ℝ) : Tensor ℝ :=
  where_ (realPairs numbers) (env.cdist positions) (scalar env.eps)

/-- `twobody.py:147`: `qq = 3 * r4r2.unsqueeze(-1) * r4r2.unsqueeze(-2)` -/
noncomputable def qqT (r4r2 : Tensor ℝ) : Tensor ℝ :=
  scalar 3 * r4r2.unsqueeze 0 * r4r2.unsqueeze 1

/-- `twobody.py:150-157`: radii depending on the type of the damping function. -/
noncomputable def radii2 (d : Damping) (r4r2 : Tensor ℝ) (rvdw : Option (Tensor ℝ)) : Tensor ℝ :=
  match d.radiusType with
  | .rvdw => match rvdw with
    | none => Tensor.fail .value
    | some r => r
  | .r4r2 => qqT r4r2

/-- `twobody.py:159-168, 186-190`: damped `1/R^n` with cutoff. -/
noncomputable def tDamp (numbers : Tensor ℕ) (positions : Tensor ℝ) (p : Param)
    (radii : Tensor ℝ) (d : Damping) (cutoff : ℝ) (order : ℕ) : Tensor ℝ :=
  let mask := realPairs numbers
  let dist := pairDistances env numbers positions
  where_ (mask.and (dist.le (scalar cutoff))) (d.callParam env dist radii order p) (scalar 0)

/-- `twobody.py:89-201` `dispersion2`. -/
noncomputable def dispersion2 (numbers : Tensor ℕ) (positions : Tensor ℝ) (p : Param)
    (c6 r4r2 : Tensor ℝ) (rvdw : Option (Tensor ℝ) := none) (d : Damping := .rational)
    (cutoff : Option ℝ := none) (asMatrix : Bool := false) : Tensor ℝ :=
  let cutoff := cutoff.getD Defaults.disp2Cutoff
  let dist := pairDistances env numbers positions
  let qq := qqT r4r2
  let c8 := c6 * qq
  let radii := radii2 d r4r2 rvdw
  let t6 := tDamp env numbers positions p radii d cutoff 6
  let t8 := tDamp env numbers positions p radii d cutoff 8
  let e6 := if asMatrix then c6 * t6 else (c6 * t6).sumLast
  let e8 := if asMatrix then c8 * t8 else (c8 * t8).sumLast
  let s6 := p.s6.tensor Defaults.s6
  let s8 := p.s8.tensor Defaults.s8
  let edisp := s6 * e6 + s8 * e8
  let edisp := match p.s10 with
    | .absent => edisp
    | s10 =>
      let c10 := c6 * qq.map (· ^ 2) * scalar 49 / scalar 40
      let t10 := tDamp env numbers positions p radii d cutoff 10
      let e10 := if asMatrix then c10 * t10 else (c10 * t10).sumLast
      edisp.after (c10.after (t10.after (edisp + s10.tensor Defaults.s10 * e10)))
  let result := if asMatrix then -edisp else scalar (-0.5) * edisp
  dist.after (c8.after (radii.after (t6.after (t8.after result))))

end

end TadDftd4
