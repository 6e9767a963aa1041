import Verif.Model.AutogradDamping
import Verif.Model.Disp

/-!
# Back-propagation through `Disp.calculate` of any dispersion class

The graph `torch.autograd` records for the energy of an atom summed over any list of terms. Rules and
conventions are those of `Model/Autograd.lean`, whose parts for distances, weights and angular terms are
used again; two-body terms are those of `Model/AutogradDamping.lean`. Of `GradCfg` only the settings of the
model and the three-body cutoff matter here, parameters are read from the dictionary, which may depend on the
scalar, too (parameter fitting).
-/

open scoped Classical

namespace TadDftd4

/-- The numbers three-body terms read from the dictionary, defaults included
(`threebody.py:233-234, 252-253, 269`). -/
noncomputable def Param.read3 (p : Param) (m : DName) : ℝ :=
  match m with
  | .s9 => (p.s9.num Defaults.s9).getD 0
  | .rs9 => (p.rs9.num Defaults.rs9).getD 0
  | .a1 => (p.a1.num Defaults.a1).getD 0
  | .a2 => (p.a2.num Defaults.a2).getD 0
  | .alp => (p.alp.num Defaults.alp).getD 0
  | m => p.read m

namespace Tape

/-- An entry of the dictionary `p` in a three-body term; `pg` tells which entries the scalar reaches
(`threebody.py:233-234, 252-253, 269`). -/
noncomputable def entry (p : ℝ → Param) (pg : DName → Bool) (m : DName) : Tape :=
  .input (pg m) (fun y => (p y).read3 m) 0

section
variable (G : GradCfg) {n : ℕ} (X : GradSys n)

/-- Charges passed to `weight_references`: `None`, that is zeros, unless the term depends on charges
(`twobody.py:72-74`, `threebody.py:293-295, 313-315`, `model/d4.py:139-140`, `d4s.py:145-146`) -/
noncomputable def qIn (charged : Bool) (i : Fin n) : Tape := if charged then X.q i else const 0

/-- `threebody.py:305-323` `C9ApproxMixin.get_c9` -/
noncomputable def c9Approx (rc : ℕ → ℕ → ℕ → ℕ → ℝ) (charged : Bool) (i j k : Fin n) : Tape :=
  let C := fun i j => c6 G X rc (qIn X charged) i j
  ssqrt G.env (abs (mul (mul (C i j) (C i k)) (C j k)))

/-- `d4.py:291-307` `get_weighted_pols` at frequency `w`; the polarizabilities of the references are
constants -/
noncomputable def pol (al : ℕ → ℕ → ℕ → ℝ) (charged : Bool) (i : Fin n) (w : ℕ) : Tape :=
  sum nref fun r => mul (weight G (G.wf (X.Z i) 0) (X.Z i) r (X.cn i) (qIn X charged i))
    (const (al (X.Z i) r w))

/-- `threebody.py:276-302` `C9ExactMixin.get_c9`, `utils.py:155-207` `trapzd_atm` -/
noncomputable def c9Exact (al : ℕ → ℕ → ℕ → ℝ) (charged : Bool) (i j k : Fin n) : Tape :=
  mul (const thopi) (sum nfreq fun w => mul (mul (mul (pol G X al charged i w) (pol G X al charged j w))
    (pol G X al charged k w)) (const (trapzWeights.getD w 0)))

/-- `r1`, or one for masked triples, `threebody.py:122-126, 139` -/
noncomputable def rr (i j k : Fin n) : Tape :=
  sel (fun _ => tripleOk X i j k) (r1 G X i j k) (const 1)

/-- `damping/functions.py:364-375` `ZeroDamping._f` for order 9, called by `threebody.py:133-143` with the
radii of pairs `rad`; `alp` is a tensor (`threebody.py:93-94`), and so is the exponent `alp / 3`. -/
noncomputable def zero9 (rad : Fin n → Fin n → Tape) (alp : Tape) (i j k : Fin n) : Tape :=
  let r0 := mul (mul (rad i j) (rad i k)) (rad j k)
  let t := mul (const 1) (sdiv G.env r0 (rr G X i j k))
  div (const 1) (add (const 1) (mul (const 6) (tpow t (div alp (const 3)))))

/-- `threebody.py:131-145` -/
noncomputable def fdampOf (rad : Fin n → Fin n → Tape) (alp : Tape) (i j k : Fin n) : Tape :=
  sel (fun _ => tripleOk X i j k) (zero9 G X rad alp i j k) (const 0)

/-- `threebody.py:131-163` `get_atm_dispersion`, energy of atom `i` -/
noncomputable def atm (rad : Fin n → Fin n → Tape) (s9 alp : Tape) (c9 : Fin n → Fin n → Fin n → Tape)
    (i : Fin n) : Tape :=
  div (sum n fun j => sum n fun k =>
    mul (mul (mul (ang G X i j k) (fdampOf G X rad alp i j k)) s9) (c9 i j k)) (const 6)

variable (rvdw : Fin n → Fin n → ℝ) (p : ℝ → Param) (pg : DName → Bool)

/-- Inputs of `dispersion2`, `twobody.py:72-86`: C6 coefficients are those of the model. Which entries are
missing does not depend on the scalar. -/
noncomputable def pairOf (C : Fin n → Fin n → Tape) : PairSys n 3 where
  Z := X.Z
  Q := X.Q
  rvdw := rvdw
  posFn := X.posFn
  posDot := X.posDot
  c6T := C
  parFn m y := (p y).read m
  isNone := (p 0).isNone
  posGrad := X.posGrad
  parGrad := pg

/-- Critical radii of the three-body terms: `threebody.py:241-256` `RadiiBJMixin` -/
noncomputable def radBJ (i j : Fin n) : Tape :=
  add (mul (entry p pg .a1) (const (G.env.ssqrt (3 * X.Q i * X.Q j)))) (entry p pg .a2)
/-- `threebody.py:259-270` `RadiiVDWMixin` -/
noncomputable def radVdW (i j : Fin n) : Tape := mul (entry p pg .rs9) (const (rvdw i j))

/-- `calculate` of a term: `twobody.py:60-86`, `threebody.py:210-235`, energy of atom `i`. `C`, `c9a` and
`c9x` are the C6, approximate and exact C9 coefficients of the model for the charges of the term. -/
noncomputable def termOf (C : Fin n → Fin n → Tape) (c9a c9x : Fin n → Fin n → Fin n → Tape)
    (cutoff : Cutoff) (t : Term) (i : Fin n) : Tape :=
  match t.cls with
  | .twoBody => Pair.energy G.env (pairOf X rvdw p pg C) t.damping cutoff.disp2 i
  | .d4ATMApprox => atm G X (radBJ G X p pg) (entry p pg .s9) (entry p pg .alp) c9a i
  | .d4ATMExact => atm G X (radBJ G X p pg) (entry p pg .s9) (entry p pg .alp) c9x i
  | .d3ATM => atm G X (radVdW rvdw p pg) (entry p pg .s9) (entry p pg .alp) c9a i

/-- A term with the coefficients as part of the graph: `rc` and `al` are the reference C6 coefficients and
polarizabilities (`twobody.py:72-75`, `threebody.py:293-302, 313-321`). -/
noncomputable def term (rc : ℕ → ℕ → ℕ → ℕ → ℝ) (al : ℕ → ℕ → ℕ → ℝ) (cutoff : Cutoff) (t : Term)
    (i : Fin n) : Tape :=
  termOf G X rvdw p pg (c6 G X rc (qIn X t.chargeDep)) (c9Approx G X rc t.chargeDep)
    (c9Exact G X al t.chargeDep) cutoff t i

end

/-- `dispersion/base.py:416-431`: energies of the terms, added to zero -/
noncomputable def total (ts : List Term) (e : Term → Tape) : Tape :=
  ts.foldl (fun s t => add s (e t)) (const 0)

/-- The energy of atom `i` (`dispersion/base.py:416-431`) -/
noncomputable def terms (G : GradCfg) {n : ℕ} (X : GradSys n) (rc : ℕ → ℕ → ℕ → ℕ → ℝ)
    (al : ℕ → ℕ → ℕ → ℝ) (rvdw : Fin n → Fin n → ℝ) (p : Param) (cutoff : Cutoff)
    (ts : List Term) (i : Fin n) : Tape :=
  total ts fun t => term G X rvdw (fun _ => p) (fun _ => false) rc al cutoff t i

/-- The graph if entries of the dictionary require gradients and the positions do not: the coefficients are
constants (`dispersion/base.py:416-431`). -/
noncomputable def termsPar (G : GradCfg) {n : ℕ} (X : GradSys n) (C : Term → Fin n → Fin n → ℝ)
    (c9a c9x : Term → Fin n → Fin n → Fin n → ℝ) (rvdw : Fin n → Fin n → ℝ) (p : ℝ → Param)
    (pg : DName → Bool) (cutoff : Cutoff) (ts : List Term) (i : Fin n) : Tape :=
  total ts fun t => termOf G X rvdw p pg (fun i j => const (C t i j)) (fun i j k => const (c9a t i j k))
    (fun i j k => const (c9x t i j k)) cutoff t i

end Tape

end TadDftd4
