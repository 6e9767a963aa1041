import Verif.Model.Numeric

/-!
# Damping functions: `/repo/src/tad_dftd4/damping/functions.py`, `/repo/src/tad_dftd4/defaults.py`
-/

open scoped Classical

namespace TadDftd4

open Tensor

/-! ## Defaults, `defaults.py:26-94` -/
namespace Defaults
/-- `defaults.py:26` -/
noncomputable def cnCutoff : ℝ := 30
/-- `defaults.py:29` -/
noncomputable def cnEeqCutoff : ℝ := 25
/-- `defaults.py:35` -/
noncomputable def disp2Cutoff : ℝ := 60
/-- `defaults.py:38` -/
noncomputable def disp3Cutoff : ℝ := 40
/-- `defaults.py:55` -/
noncomputable def a1 : ℝ := 0.4
/-- `defaults.py:58` -/
noncomputable def a2 : ℝ := 5
/-- `defaults.py:61` -/
noncomputable def rs6 : ℝ := 1
/-- `defaults.py:66` -/
noncomputable def s6 : ℝ := 1
/-- `defaults.py:69` -/
noncomputable def rs8 : ℝ := 1
/-- `defaults.py:74` -/
noncomputable def s8 : ℝ := 1
/-- `defaults.py:77` -/
noncomputable def s9 : ℝ := 1
/-- `defaults.py:80` -/
noncomputable def s10 : ℝ := 0
/-- `defaults.py:83` -/
noncomputable def rs9 : ℝ := 1
/-- `defaults.py:90` -/
noncomputable def alp : ℝ := 16
/-- `defaults.py:93` -/
noncomputable def bet : ℝ := 0
end Defaults

/-- Entry of a parameter dictionary: key absent, key with value `None`, key with a number
(`damping/parameters/base.py:48-85`). -/
inductive PVal
  | absent
  | none
  | val (x : ℝ)

/-- `damping/parameters/base.py:48-85` `Param`. `extra` lists keys that are not parameters of
`Damping.__call__`. Numbers and 0-dimensional tensors are not distinguished. -/
structure Param where
  a1 : PVal := .absent
  a2 : PVal := .absent
  s6 : PVal := .absent
  rs6 : PVal := .absent
  s8 : PVal := .absent
  rs8 : PVal := .absent
  s9 : PVal := .absent
  rs9 : PVal := .absent
  s10 : PVal := .absent
  alp : PVal := .absent
  bet : PVal := .absent
  doi : Option String := none
  extra : List String := []

/-- Keyword arguments as bound by `Damping.__call__`; `none` is Python's `None`
(`damping/functions.py:116-135`). -/
structure Kw where
  a1 : Option ℝ := none
  a2 : Option ℝ := none
  s6 : Option ℝ := some Defaults.s6
  rs6 : Option ℝ := none
  s8 : Option ℝ := none
  rs8 : Option ℝ := none
  s9 : Option ℝ := some Defaults.s9
  rs9 : Option ℝ := some Defaults.rs9
  s10 : Option ℝ := none
  alp : Option ℝ := some Defaults.alp
  bet : Option ℝ := none

/-- Value of a keyword argument with default `d` (`damping/functions.py:123-133`). -/
def PVal.kw (d : Option ℝ) : PVal → Option ℝ
  | .absent => d
  | .none => Option.none
  | .val x => some x

/-- `**param` in a call of a damping function (defaults of `functions.py:123-134`). -/
noncomputable def Param.kw (p : Param) : Kw where
  a1 := p.a1.kw none
  a2 := p.a2.kw none
  s6 := p.s6.kw (some Defaults.s6)
  rs6 := p.rs6.kw none
  s8 := p.s8.kw none
  rs8 := p.rs8.kw none
  s9 := p.s9.kw (some Defaults.s9)
  rs9 := p.rs9.kw (some Defaults.rs9)
  s10 := p.s10.kw none
  alp := p.alp.kw (some Defaults.alp)
  bet := p.bet.kw none

/-- `param.get(key, default)` used in an arithmetic expression: `None` raises a TypeError
(`twobody.py:177-178, 197`, `threebody.py:252-253, 269`). -/
def PVal.tensor (d : ℝ) : PVal → Tensor ℝ
  | .absent => scalar d
  | .none => Tensor.fail .type
  | .val x => scalar x

/-- Number passed as `s9` or `alp` to `get_atm_dispersion`, `threebody.py:233-234`. -/
def PVal.num (d : ℝ) : PVal → Option ℝ
  | .absent => some d
  | .none => Option.none
  | .val x => some x

/-- Concrete damping classes: `functions.py:241` `RationalDamping`, `:308` `ZeroDamping`,
`:381` `MZeroDamping`, `:437` `OptimisedPowerDamping`. (`ZDamping` is abstract.) `__eq__`
(`:214-235`) compares classes, i.e. is equality of this type. -/
inductive Damping | rational | zero | mzero | op
  deriving DecidableEq, Repr

/-- `damping/functions.py:62` -/
inductive RadiusType | r4r2 | rvdw
  deriving DecidableEq, Repr

/-- `functions.py:252, 319, 384, 440` -/
def Damping.radiusType : Damping → RadiusType
  | .rational => .r4r2
  | .zero => .rvdw
  | .mzero => .rvdw
  | .op => .r4r2

/-- `REQUIRED_BY_ORDER`, `functions.py:255-259, 322-326, 387-390, 443-446`: the values of the
required keywords. -/
def Damping.required (d : Damping) (order : ℕ) (kw : Kw) : List (Option ℝ) :=
  match d, order with
  | .rational, 6 => [kw.a1, kw.a2]
  | .rational, 8 => [kw.a1, kw.a2]
  | .rational, 10 => [kw.a1, kw.a2]
  | .zero, 6 => [kw.rs6, kw.alp]
  | .zero, 8 => [kw.rs8, kw.alp]
  | .zero, 9 => [kw.rs9, kw.alp]
  | .mzero, 6 => [kw.rs6, kw.alp, kw.bet]
  | .mzero, 8 => [kw.rs8, kw.alp, kw.bet]
  | .op, 6 => [kw.a1, kw.a2, kw.bet]
  | .op, 8 => [kw.a1, kw.a2, kw.bet]
  | _, _ => []

/-! ### Element-wise formulas -/

/-- `functions.py:304-305`: `radius = a1 * sqrt(radii) + a2; 1 / (distances^n + radius^n)` -/
noncomputable def ratF (a1 a2 : ℝ) (order : ℕ) (d r : ℝ) : ℝ :=
  1 / (d ^ order + (a1 * Real.sqrt r + a2) ^ order)

/-- `functions.py:370-372`: `t = rs * divide(distances, radii); 1 / (1 + 6 t^alp)` -/
noncomputable def zeroF (env : Env) (rs alp : ℝ) (d r : ℝ) : ℝ :=
  1 / (1 + 6 * (rs * env.sdiv d r) ^ alp)

/-- `functions.py:430-433`: `t = d / (rs * r) + bet * r; 1 / (1 + 6 t^(-alp))` -/
noncomputable def mzeroF (rs alp bet : ℝ) (d r : ℝ) : ℝ :=
  1 / (1 + 6 * (d / (rs * r) + bet * r) ^ (-alp))

/-- `functions.py:477-484`: `radius = a1*sqrt(r)+a2; ab = radius^bet; rb = d^bet;`
`rb / (rb * d^n + ab * d^n)` -/
noncomputable def opF (a1 a2 bet : ℝ) (order : ℕ) (d r : ℝ) : ℝ :=
  d ^ bet / (d ^ bet * d ^ order + (a1 * Real.sqrt r + a2) ^ bet * d ^ order)

/-- `_f` of the damping classes (`functions.py:262-305, 329-378, 393-434, 449-484`), after the
check of the required keywords. The `assert` statements raise AssertionError. -/
noncomputable def Damping.f (env : Env) (d : Damping) (dist rad : Tensor ℝ) (order : ℕ)
    (onlyDamping : Bool) (kw : Kw) : Tensor ℝ :=
  match d with
  | .rational => match kw.a1, kw.a2 with
    | some a1, some a2 => map2 (ratF a1 a2 order) dist rad
    | _, _ => Tensor.fail .assertion
  | .zero => match kw.alp with
    | none => Tensor.fail .assertion
    | some alp =>
      if order ≠ 6 ∧ order ≠ 8 ∧ order ≠ 9 then Tensor.fail .value
      else
        let rs := if order = 6 then kw.rs6 else if order = 8 then kw.rs8 else kw.rs9
        let alpN := if order = 8 then alp + 2 else alp
        match rs with
        | none => Tensor.fail .assertion
        | some rs =>
          let fn := map2 (zeroF env rs alpN) dist rad
          if onlyDamping then fn else map2 env.sdiv fn (dist.map (· ^ order))
  | .mzero => match kw.alp, kw.bet with
    | some alp, some bet =>
      if order ≠ 6 ∧ order ≠ 8 then Tensor.fail .value
      else
        let rs := if order = 6 then kw.rs6 else kw.rs8
        let alpN := if order = 8 then alp + 2 else alp
        match rs with
        | none => Tensor.fail .assertion
        | some rs => map2 env.sdiv (map2 (mzeroF rs alpN bet) dist rad) (dist.map (· ^ order))
    | _, _ => Tensor.fail .assertion
  | .op => match kw.a1, kw.a2, kw.bet with
    | some a1, some a2, some bet =>
      if order ≠ 6 ∧ order ≠ 8 then Tensor.fail .value
      else map2 (opF a1 a2 bet order) dist rad
    | _, _, _ => Tensor.fail .assertion

/-- `functions.py:94-112` `_checked_f`: TypeError if a required keyword is `None`. -/
noncomputable def Damping.checkedF (env : Env) (d : Damping) (dist rad : Tensor ℝ) (order : ℕ)
    (onlyDamping : Bool) (kw : Kw) : Tensor ℝ :=
  if none ∈ d.required order kw then Tensor.fail .type
  else d.f env dist rad order onlyDamping kw

/-- `torch.zeros_like(distances)` (`damping/functions.py:142-151`). -/
def zerosLike (x : Tensor ℝ) : Tensor ℝ := ⟨x.err, x.shape, fun _ => 0⟩

/-- `functions.py:116-169` `Damping.__call__` with keywords already bound. The assignment
`self.doi = doi` is modelled in `Model/DampingState.lean`. -/
noncomputable def Damping.call (env : Env) (d : Damping) (dist rad : Tensor ℝ) (order : ℕ)
    (onlyDamping : Bool) (kw : Kw) : Tensor ℝ :=
  if order = 6 ∧ kw.s6 = none ∧ kw.rs6 = none then zerosLike dist
  else if order = 8 ∧ kw.s8 = none ∧ kw.rs8 = none then zerosLike dist
  else if order = 9 ∧ kw.s9 = none ∧ kw.rs9 = none then zerosLike dist
  else if order = 10 ∧ kw.s10 = none then zerosLike dist
  else d.checkedF env dist rad order onlyDamping kw

/-- `damping_function(distances, radii, order, **param)`: TypeError for unknown keys
(`twobody.py:161, 166, 188`). -/
noncomputable def Damping.callParam (env : Env) (d : Damping) (dist rad : Tensor ℝ) (order : ℕ)
    (p : Param) : Tensor ℝ :=
  if p.extra ≠ [] then Tensor.fail .type else d.call env dist rad order false p.kw

@[simp] theorem zerosLike_err (x : Tensor ℝ) : (zerosLike x).err = x.err := rfl
@[simp] theorem zerosLike_shape (x : Tensor ℝ) : (zerosLike x).shape = x.shape := rfl
@[simp] theorem zerosLike_get (x : Tensor ℝ) (i : Idx) : (zerosLike x).get i = 0 := rfl

end TadDftd4
