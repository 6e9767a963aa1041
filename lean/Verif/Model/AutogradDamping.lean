import Verif.Model.Autograd
import Verif.Model.TwoBody

/-!
# Back-propagation through `dispersion2` with any damping function

The graph `torch.autograd` records for the energy of an atom in `dispersion2`, with positions, C6
coefficients and damping parameters as inputs. Rules and conventions are those of `Model/Autograd.lean`.
Powers of distances are subject to underflow (`Env.fl`), except those of rational damping, where the
critical radius is added to them.
-/

open scoped Classical

namespace TadDftd4

/-- Keys of the parameter dictionary that terms read
(`damping/functions.py:123-133`, `twobody.py:177-178, 197`, `threebody.py:233-234, 252-253, 269`). -/
inductive DName | s6 | s8 | s9 | s10 | rs6 | rs8 | rs9 | a1 | a2 | alp | bet
  deriving DecidableEq

/-- `param[m] = v` (entries of `damping/parameters/base.py:48-85`) -/
def Param.put (p : Param) (m : DName) (v : ℝ) : Param :=
  match m with
  | .s6 => { p with s6 := .val v }
  | .s8 => { p with s8 := .val v }
  | .s9 => { p with s9 := .val v }
  | .s10 => { p with s10 := .val v }
  | .rs6 => { p with rs6 := .val v }
  | .rs8 => { p with rs8 := .val v }
  | .rs9 => { p with rs9 := .val v }
  | .a1 => { p with a1 := .val v }
  | .a2 => { p with a2 := .val v }
  | .alp => { p with alp := .val v }
  | .bet => { p with bet := .val v }

/-- The keyword argument `m` of the damping functions, `damping/functions.py:123-133` -/
noncomputable def Param.arg (p : Param) (m : DName) : Option ℝ :=
  match m with
  | .s6 => p.kw.s6
  | .s8 => p.kw.s8
  | .s9 => p.kw.s9
  | .s10 => p.kw.s10
  | .rs6 => p.kw.rs6
  | .rs8 => p.kw.rs8
  | .rs9 => p.kw.rs9
  | .a1 => p.kw.a1
  | .a2 => p.kw.a2
  | .alp => p.kw.alp
  | .bet => p.kw.bet

/-- Is the keyword argument `None`? (`damping/functions.py:141-151`) -/
noncomputable def Param.isNone (p : Param) (m : DName) : Bool := (p.arg m).isNone

/-- The number used for `m`; `s8` is also read by `param.get("s8", defaults.S8)`
(`damping/functions.py:123-133`, `twobody.py:178`) -/
noncomputable def Param.read (p : Param) (m : DName) : ℝ :=
  (p.arg m).getD (if m = .s8 then Defaults.s8 else 0)

/-- One system of the batch; positions, C6 coefficients and parameters are functions of one scalar
(arguments of `dispersion2`, `twobody.py:89-99`). The parameters are read from the dictionary. -/
structure PairSys (n c : ℕ) where
  Z : Fin n → ℕ
  Q : Fin n → ℝ
  rvdw : Fin n → Fin n → ℝ
  posFn : Fin n → Fin c → ℝ → ℝ
  /-- derivatives of the positions with respect to another scalar, for second derivatives -/
  posDot : Fin n → Fin c → ℝ → ℝ := fun _ _ _ => 0
  /-- C6 coefficients: the graph that computes them, or an input -/
  c6T : Fin n → Fin n → Tape
  parFn : DName → ℝ → ℝ
  /-- is the keyword argument of the damping function `None`? (`s10`: is the key missing?) -/
  isNone : DName → Bool
  /-- does the scalar reach these inputs? -/
  posGrad : Bool
  parGrad : DName → Bool

namespace Tape
namespace Pair

section
variable (env : Env)

/-- `alp_n`, `damping/functions.py:354-364, 417-425` -/
noncomputable def alpN (k : ℕ) (V : DName → Tape) : Tape :=
  if k = 8 then add (V .alp) (const 2) else V .alp

/-- `rs`, `damping/functions.py:354-364, 417-425` -/
noncomputable def rsN (k : ℕ) (V : DName → Tape) : Tape := if k = 6 then V .rs6 else V .rs8

/-- `damping/functions.py:262-305, 329-378, 393-434, 449-484`: `_f` of the four damping functions for
order `k`, distance `D` and radius `R` -/
noncomputable def damp (d : Damping) (k : ℕ) (D : Tape) (R : ℝ) (V : DName → Tape) : Tape :=
  match d with
  | .rational =>
    let radius := add (mul (V .a1) (const (Real.sqrt R))) (V .a2)
    div (const 1) (add (npow D k) (npow radius k))
  | .zero =>
    let t := mul (rsN k V) (sdiv env D (const R))
    let f := div (const 1) (add (const 1) (mul (const 6) (tpow t (alpN k V))))
    sdiv env f (pow env.fl D k)
  | .mzero =>
    let t := add (div D (mul (rsN k V) (const R))) (mul (V .bet) (const R))
    let f := div (const 1) (add (const 1) (mul (const 6) (tpow t (neg (alpN k V)))))
    sdiv env f (pow env.fl D k)
  | .op =>
    let radius := add (mul (V .a1) (const (Real.sqrt R))) (V .a2)
    let ab := tpow radius (V .bet)
    let rb := tpow D (V .bet)
    div rb (add (mul rb (pow env.fl D k)) (mul ab (pow env.fl D k)))

/-- `damping/functions.py:141-151`: orders for which zeros are returned -/
def zeroed (isNone : DName → Bool) (k : ℕ) : Bool :=
  (k == 6 && isNone .s6 && isNone .rs6) || (k == 8 && isNone .s8 && isNone .rs8) ||
    (k == 10 && isNone .s10)

/-- `damping/functions.py:116-169` `Damping.__call__`, if it raises nothing -/
noncomputable def call (isNone : DName → Bool) (d : Damping) (k : ℕ) (D : Tape) (R : ℝ)
    (V : DName → Tape) : Tape :=
  if zeroed isNone k then const 0 else damp env d k D R V

variable {n c : ℕ} (X : PairSys n c)

/-- `real_pairs`, `twobody.py:140` -/
def ok (i j : Fin n) : Prop := X.Z i ≠ 0 ∧ X.Z j ≠ 0 ∧ i ≠ j

/-- `positions`, `twobody.py:91` -/
noncomputable def pos (i : Fin n) (k : Fin c) : Tape := .input X.posGrad (X.posFn i k) (X.posDot i k)
/-- `c6`, `twobody.py:93` -/
noncomputable def c6 (i j : Fin n) : Tape := X.c6T i j
/-- `**param`, `twobody.py:161, 177-178` -/
noncomputable def par (m : DName) : Tape := .input (X.parGrad m) (X.parFn m) 0

/-- `storch.cdist`, `twobody.py:143`, see `Env.cdist` -/
noncomputable def cdist (i j : Fin n) : Tape :=
  ssqrt env (sub (add (sum c fun k => mul (pos X i k) (pos X i k))
    (sum c fun k => mul (pos X j k) (pos X j k)))
    (mul (const 2) (sum c fun k => mul (pos X i k) (pos X j k))))

/-- `twobody.py:140-145` -/
noncomputable def distance (i j : Fin n) : Tape :=
  sel (fun _ => ok X i j) (cdist env X i j) (const env.eps)

/-- `twobody.py:150-157` -/
noncomputable def radius (d : Damping) (i j : Fin n) : ℝ :=
  match d.radiusType with
  | .rvdw => X.rvdw i j
  | .r4r2 => 3 * X.Q i * X.Q j

/-- `twobody.py:159-168, 186-190`: `t6`, `t8`, `t10` -/
noncomputable def damped (d : Damping) (cut : ℝ) (k : ℕ) (i j : Fin n) : Tape :=
  sel (fun y => ok X i j ∧ ((distance env X i j).eval y).le cut)
    (call env X.isNone d k (distance env X i j) (radius X d i j) (par X)) (const 0)

/-- `twobody.py:147-148, 174-201`: energy of atom `i` -/
noncomputable def energy (d : Damping) (cut : ℝ) (i : Fin n) : Tape :=
  let e6 := sum n fun j => mul (c6 X i j) (damped env X d cut 6 i j)
  let e8 := sum n fun j => mul (mul (c6 X i j) (const (3 * X.Q i * X.Q j))) (damped env X d cut 8 i j)
  let e := add (mul (par X .s6) e6) (mul (par X .s8) e8)
  if X.isNone .s10 then mul (const (-0.5)) e
  else
    let e10 := sum n fun j =>
      mul (div (mul (mul (c6 X i j) (const ((3 * X.Q i * X.Q j) ^ 2))) (const 49)) (const 40))
        (damped env X d cut 10 i j)
    mul (const (-0.5)) (add e (mul (par X .s10) e10))

end
end Pair
end Tape

end TadDftd4
