import Verif.Model.Disp
import Verif.Model.Ieee

/-!
# Total charges given as Python numbers

`dftd4`, `get_properties` and `Disp.calculate` accept the total charge as a number or as a tensor
(`charge: Tensor | float | int`, `disp.py:47, 152`, `dispersion/base.py:289`). It is converted with
`tad_mctc.convert.any_to_tensor`: tensors are converted to the requested dtype, numbers become a tensor of no axes
of the requested dtype. `disp.py:139` requests none: floats then have the default dtype of PyTorch
(`torch.get_default_dtype()`, single precision if not set) and integers are exact.

Simplifications: integers are unbounded (`int64` in PyTorch); dtypes of floating point numbers only.
-/

namespace TadDftd4

open Tensor Rounded

/-- The argument `charge` (`disp.py:47, 152`, `dispersion/base.py:289`). -/
inductive ChargeArg
  | int (k : ℤ)
  | float (x : ℝ)
  | tensor (t : Tensor ℝ)

/-- The default dtype, that of the positions (`disp.py:179`, `dispersion/base.py:350`), and the conversion of numbers to
a dtype. -/
structure Conv where
  default : Fmt
  own : Fmt
  rd : Fmt → ℝ → ℝ

/-- Single or double precision (`disp.py:179`). -/
def Rounded.Fmt.Usual (F : Fmt) : Prop := F = binary32 ∨ F = binary64

/-- Both dtypes are single or double precision; conversions round to a nearest number (IEEE 754, 5.4.2;
`disp.py:139, 187`). -/
structure Conv.Ok (v : Conv) : Prop where
  default : v.default.Usual
  own : v.own.Usual
  nearest : ∀ (F : Fmt) (x : ℝ), F.Usual → |x| ≤ F.big → F.Nearest x (v.rd F x)

/-- `any_to_tensor(charge)` (`disp.py:139`). -/
noncomputable def Conv.plain (v : Conv) : ChargeArg → Tensor ℝ
  | .int k => scalar (k : ℝ)
  | .float x => scalar (v.rd v.default x)
  | .tensor t => t

/-- `any_to_tensor(charge, **dd)` (`disp.py:187`, `dispersion/base.py:352`). -/
noncomputable def Conv.typed (v : Conv) : ChargeArg → Tensor ℝ
  | .int k => scalar (v.rd v.own k)
  | .float x => scalar (v.rd v.own x)
  | .tensor t => t.map (v.rd v.own)

section
variable (env : Env) (T : Tables) (ext : Ext) (v : Conv)

/-- `Disp.calculate` (`dispersion/base.py:285-431`), conversion at line 352. -/
noncomputable def Disp.calculateN (d : Disp) (numbers : Tensor ℕ) (positions : Tensor ℝ) (charge : ChargeArg)
    (p : Param) (o : CalcOpts := {}) : Except Err (Tensor ℝ) :=
  d.calculate env T ext numbers positions (v.typed charge) p o

/-- `dftd4` (`disp.py:44-146`): the charge is converted at line 139 and again in `calculate`. -/
noncomputable def dftd4N (numbers : Tensor ℕ) (positions : Tensor ℝ) (charge : ChargeArg) (p : Param)
    (o : DftOpts := {}) : Except Err (Tensor ℝ) := do
  let d ← Disp.new ext .base o.model none (some (o.cnFunction.getD ext.cnD4))
    (some (o.counting.getD ext.erfCount))
  let d := d.register ⟨.twoBody, o.damping, true⟩
  let d := d.register ⟨.d4ATMApprox, .zero, false⟩
  d.calculateN env T ext v numbers positions (.tensor (v.plain charge)) p o.opts

/-- `get_properties` (`disp.py:149-197`), conversion at line 184-187. -/
noncomputable def getPropertiesN (numbers : Tensor ℕ) (positions : Tensor ℝ) (charge : Option ChargeArg := none)
    (cutoff : Option Cutoff := none) : Except Err (Tensor ℝ × Tensor ℝ × Tensor ℝ × Tensor ℝ) :=
  getProperties env T ext numbers positions (charge.map v.typed) cutoff

end

end TadDftd4
