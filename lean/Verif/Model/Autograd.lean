import Verif.Model.RefModel
import Verif.Model.ThreeBody
import Mathlib.Analysis.Calculus.Deriv.Basic

/-!
# Back-propagation

The graph `torch.autograd` records for the energy of an atom in `dftd4`, and the backward pass through
it. The graph is that of one system, entry by entry: every node is a number; what the code does with a
tensor is done here for each of its entries. Inputs (leaves) are the positions, and the coordination
numbers and charges, whose functions are external. Everything is a function of one scalar parameter
`y` the inputs depend on (for instance one coordinate of one atom); the result of the backward pass is
the derivative with respect to it.

Inputs that do not require gradients, and those whose own gradient is another component of the result,
are `frozen`: nothing arrives at the parameter through them.

PyTorch's rules (`tools/autograd/derivatives.yaml`, external, trusted) are those of `Tape.back`. Numbers
are IEEE numbers without rounding (`FP`), so that `0 * inf` and `0 / 0` in a branch that is not selected
by `torch.where` are NaN as in PyTorch. Powers and exponentials of the weights are subject to underflow
(`Env.fl`), the inner exponential of the charge scaling to overflow (`Env.fmax`).
-/

open scoped Classical

namespace TadDftd4

namespace FP

/-- `torch.pow` with a floating point exponent; `fl` is the effect of underflow (`model/d4.py:187`). -/
noncomputable def pow (fl : ℝ → ℝ) (p : ℝ) : FP → FP
  | fin x =>
    if 0 < x then fin (fl (x ^ p))
    else if x = 0 then (if 0 ≤ p then fin (fl (x ^ p)) else pinf)
    else if ∃ k : ℤ, p = k then fin (fl (x ^ p)) else nan
  | pinf => if 0 < p then pinf else if p = 0 then fin 1 else fin 0
  | ninf => nan
  | nan => nan

/-- `torch.pow` with a fixed positive integer exponent
(`model/d4s.py:207`, `twobody.py:185`, `threebody.py:113`, `damping/functions.py:305`). -/
noncomputable def npow (k : ℕ) : FP → FP
  | fin x => fin (x ^ k)
  | pinf => pinf
  | ninf => if Even k then pinf else ninf
  | nan => nan

/-- `torch.sqrt`, `threebody.py:126`, `damping/functions.py:304` -/
noncomputable def sqrt : FP → FP
  | fin x => if 0 ≤ x then fin (Real.sqrt x) else nan
  | pinf => pinf
  | ninf => nan
  | nan => nan

/-- `torch.abs`, `threebody.py:320` -/
noncomputable def abs : FP → FP
  | fin x => fin |x|
  | pinf => pinf
  | ninf => pinf
  | nan => nan

/-- `torch.sgn` (backward of `torch.abs`, `threebody.py:320`). -/
noncomputable def sgn : FP → FP
  | fin x => fin (if 0 < x then 1 else if x < 0 then -1 else 0)
  | pinf => fin 1
  | ninf => fin (-1)
  | nan => nan

/-- `torch.clamp(x, min=c)`
(in `storch.sqrt`, `threebody.py:255, 319`, and `storch.cdist`, `twobody.py:143`). -/
noncomputable def clampMin (c : ℝ) : FP → FP
  | fin x => fin (max x c)
  | pinf => pinf
  | ninf => fin c
  | nan => nan

/-- `exp` with underflow (`model/d4.py:178`, `d4s.py:198`). -/
noncomputable def flexp (fl : ℝ → ℝ) : FP → FP
  | fin x => fin (fl (Real.exp x))
  | pinf => pinf
  | ninf => fin 0
  | nan => nan

/-- `exp` with overflow (`model/base.py:329`). -/
noncomputable def oexp (fmax : ℝ) : FP → FP
  | fin x => if Real.exp x ≤ fmax then fin (Real.exp x) else pinf
  | pinf => pinf
  | ninf => fin 0
  | nan => nan

/-- Comparison with a number (`distances <= cutoff`, `twobody.py:160`, `threebody.py:155-157`). -/
def le (c : ℝ) : FP → Prop
  | fin x => x ≤ c
  | ninf => True
  | _ => False
/-- Used in the backward pass of `clamp`, see `clampMin` -/
def ge (c : ℝ) : FP → Prop
  | fin x => c ≤ x
  | pinf => True
  | _ => False
/-- `qmod > 0.0`, `model/base.py:332` -/
def gt (c : ℝ) : FP → Prop
  | fin x => c < x
  | pinf => True
  | _ => False
/-- In `storch.divide`, `damping/functions.py:370` -/
def ne0 : FP → Prop
  | fin x => x ≠ 0
  | _ => True

/-- `torch.sum`, `twobody.py:174-175`, `threebody.py:163` -/
noncomputable def sum (l : List FP) : FP := l.foldr add (fin 0)

/-- `torch.log`, in the backward pass of `t_n**alp_n`, `damping/functions.py:372` -/
noncomputable def log : FP → FP
  | fin x => if 0 < x then fin (Real.log x) else if x = 0 then ninf else nan
  | pinf => pinf
  | ninf => nan
  | nan => nan

/-- `torch.pow` of two tensors. Simplified: NaN if the exponent is not a number
(`t_n**alp_n`, `damping/functions.py:372`). -/
noncomputable def tpow (x : FP) : FP → FP
  | fin p => x.pow id p
  | _ => nan

/-- `exponent * self.pow(exponent - 1)`, zero if the exponent is zero (`pow_backward_self`)
(backward of `damping/functions.py:372`). -/
noncomputable def powBase (g x : FP) : FP → FP
  | fin p => if p = 0 then fin 0 else g.mul ((fin p).mul (x.pow id (p - 1)))
  | _ => nan

/-- `result * self.log()`, zero if the base is zero and the exponent not negative
(`pow_backward_exponent`) (backward of `damping/functions.py:372`). -/
noncomputable def powExponent (g x p : FP) : FP :=
  if ¬ x.ne0 ∧ p.ge 0 then g.mul (fin 0) else g.mul ((x.tpow p).mul x.log)

end FP

/-- Nodes of the graph. Conditions of `sel` (`torch.where`) depend on the parameter. A leaf carries its
value and its derivative with respect to the parameter, and, for second derivatives, its derivative with
respect to another parameter and the derivative of the latter with respect to the parameter
(operations that occur in `disp.py`, `dispersion/twobody.py:134-201`, `threebody.py:91-163, 244-321`, `model/base.py:326-335`, `model/d4.py:142-289`, `d4s.py:148-290`). -/
inductive Tape
  | leaf (f f' d d' : ℝ → ℝ)
  | frozen (f : ℝ → ℝ)
  | const (c : ℝ)
  | neg (a : Tape)
  | add (a b : Tape)
  | sub (a b : Tape)
  | mul (a b : Tape)
  | div (a b : Tape)
  | exp (fl : ℝ → ℝ) (a : Tape)
  | expo (fmax : ℝ) (a : Tape)
  | pow (fl : ℝ → ℝ) (a : Tape) (p : ℝ)
  | npow (a : Tape) (k : ℕ)
  | sqrt (a : Tape)
  | abs (a : Tape)
  | sgn (a : Tape)
  | log (a : Tape)
  | clampMin (a : Tape) (c : ℝ)
  | sel (c : ℝ → Prop) (a b : Tape)
  | sum (n : ℕ) (f : Fin n → Tape)
  | tpow (a b : Tape)

namespace Tape

/-- Forward pass (operations of PyTorch, see `Tape`). -/
noncomputable def eval (y : ℝ) : Tape → FP
  | leaf f _ _ _ => .fin (f y)
  | frozen f => .fin (f y)
  | const c => .fin c
  | neg a => (a.eval y).neg
  | add a b => (a.eval y).add (b.eval y)
  | sub a b => (a.eval y).sub (b.eval y)
  | mul a b => (a.eval y).mul (b.eval y)
  | div a b => (a.eval y).div (b.eval y)
  | exp fl a => (a.eval y).flexp fl
  | expo fmax a => (a.eval y).oexp fmax
  | pow fl a p => (a.eval y).pow fl p
  | npow a k => (a.eval y).npow k
  | sqrt a => (a.eval y).sqrt
  | abs a => (a.eval y).abs
  | sgn a => (a.eval y).sgn
  | log a => (a.eval y).log
  | clampMin a c => (a.eval y).clampMin c
  | sel c a b => if c y then a.eval y else b.eval y
  | sum n f => FP.sum (List.ofFn fun i : Fin n => (f i).eval y)
  | tpow a b => (a.eval y).tpow (b.eval y)

/-- Backward pass: what arrives at the parameter for the gradient `g` of the node
(`energy.sum().backward()` in user code, `/repo/test/test_grad/test_pos.py`). -/
noncomputable def back (y : ℝ) : Tape → FP → FP
  | leaf _ f' _ _, g => g.mul (.fin (f' y))
  | frozen _, _ => .fin 0
  | const _, _ => .fin 0
  | neg a, g => a.back y g.neg
  | add a b, g => (a.back y g).add (b.back y g)
  | sub a b, g => (a.back y g).add (b.back y g.neg)
  | mul a b, g => (a.back y (g.mul (b.eval y))).add (b.back y (g.mul (a.eval y)))
  | div a b, g => (a.back y (g.div (b.eval y))).add
      (b.back y (g.neg.mul (((a.eval y).div (b.eval y)).div (b.eval y))))
  | exp fl a, g => a.back y (g.mul ((a.eval y).flexp fl))
  | expo fmax a, g => a.back y (g.mul ((a.eval y).oexp fmax))
  | pow fl a p, g => a.back y (if p = 0 then .fin 0 else
      g.mul ((FP.fin p).mul ((a.eval y).pow fl (p - 1))))
  | npow a k, g => a.back y (g.mul ((FP.fin k).mul ((a.eval y).npow (k - 1))))
  | sqrt a, g => a.back y (g.div ((FP.fin 2).mul (a.eval y).sqrt))
  | abs a, g => a.back y (g.mul (a.eval y).sgn)
  | sgn a, _ => a.back y (.fin 0)
  | log a, g => a.back y (g.div (a.eval y))
  | clampMin a c, g => a.back y (if (a.eval y).ge c then g else .fin 0)
  | sel c a b, g => (a.back y (if c y then g else .fin 0)).add
      (b.back y (if c y then .fin 0 else g))
  | sum n f, g => FP.sum (List.ofFn fun i : Fin n => (f i).back y g)
  | tpow a b, g => (a.back y (FP.powBase g (a.eval y) (b.eval y))).add
      (b.back y (FP.powExponent g (a.eval y) (b.eval y)))

/-- Backward pass with `create_graph=True`: the graph of what arrives at the other parameter, for the
graph `g` of the gradient of the node. The rules are those of `back`
(`/repo/test/test_grad/test_hessian.py`). -/
noncomputable def backT : Tape → Tape → Tape
  | leaf _ _ d d', g => mul g (leaf d d' 0 0)
  | frozen _, _ => const 0
  | const _, _ => const 0
  | neg a, g => a.backT (neg g)
  | add a b, g => add (a.backT g) (b.backT g)
  | sub a b, g => add (a.backT g) (b.backT (neg g))
  | mul a b, g => add (a.backT (mul g b)) (b.backT (mul g a))
  | div a b, g => add (a.backT (div g b)) (b.backT (mul (neg g) (div (div a b) b)))
  | exp fl a, g => a.backT (mul g (exp fl a))
  | expo fmax a, g => a.backT (mul g (expo fmax a))
  | pow fl a p, g => a.backT (if p = 0 then const 0 else mul g (mul (const p) (pow fl a (p - 1))))
  | npow a k, g => a.backT (mul g (mul (const k) (npow a (k - 1))))
  | sqrt a, g => a.backT (div g (mul (const 2) (sqrt a)))
  | abs a, g => a.backT (mul g (sgn a))
  | sgn a, _ => a.backT (const 0)
  | log a, g => a.backT (div g a)
  | clampMin a c, g => a.backT (sel (fun y => (a.eval y).ge c) g (const 0))
  | sel c a b, g => add (a.backT (sel c g (const 0))) (b.backT (sel c (const 0) g))
  | sum n f, g => sum n fun i => (f i).backT g
  | tpow a b, g => add
      (a.backT (sel (fun y => ¬ (b.eval y).ne0) (const 0)
        (mul g (mul b (tpow a (sub b (const 1)))))))
      (b.backT (sel (fun y => ¬ (a.eval y).ne0 ∧ (b.eval y).ge 0) (mul g (const 0))
        (mul g (mul (tpow a b) (log a)))))

/-- `storch.sqrt`, see `Env.ssqrt` (`threebody.py:255, 319`). -/
noncomputable def ssqrt (env : Env) (a : Tape) : Tape := sqrt (clampMin a env.eps)

/-- `storch.divide`, see `Env.sdiv` (`damping/functions.py:370`). -/
noncomputable def sdiv (env : Env) (a b : Tape) : Tape :=
  div a (sel (fun y => (b.eval y).ne0) b (const env.eps))

end Tape

/-- Settings of a calculation with `dftd4` (arguments of `disp.py:44-59`, `model/base.py:107-117`). -/
structure GradCfg where
  env : Env
  T : Tables
  kind : ModelKind
  ga : ℝ
  gc : ℝ
  rq : String
  wf : ℕ → ℕ → ℝ
  s6 : ℝ
  s8 : ℝ
  /-- `none`: no `s10` in the parameters -/
  s10 : Option ℝ
  s9 : ℝ
  a1 : ℝ
  a2 : ℝ
  alp : ℝ
  cut2 : ℝ
  cut3 : ℝ

/-- A system whose positions, coordination numbers and charges depend on a parameter. The functions
that compute coordination numbers and charges from the positions are external; their backward passes
are assumed to yield the derivative (`disp.py:112-146`, `dispersion/base.py:389-414`). -/
structure GradSys (n : ℕ) where
  Z : Fin n → ℕ
  Q : Fin n → ℝ
  posFn : Fin n → Fin 3 → ℝ → ℝ
  cnFn : Fin n → ℝ → ℝ
  qFn : Fin n → ℝ → ℝ
  /-- derivatives with respect to another parameter, for second derivatives -/
  posDot : Fin n → Fin 3 → ℝ → ℝ := fun _ _ _ => 0
  cnDot : Fin n → ℝ → ℝ := fun _ _ => 0
  qDot : Fin n → ℝ → ℝ := fun _ _ => 0
  /-- does the parameter reach these inputs? -/
  posGrad : Bool := true
  cnGrad : Bool := true
  qGrad : Fin n → Bool := fun _ => true

/-- An input (tensors given by the user or computed from positions, `dispersion/base.py:390, 405`). -/
noncomputable def Tape.input (grad : Bool) (f d : ℝ → ℝ) : Tape :=
  if grad then .leaf f (deriv f) d (deriv d) else .frozen f

namespace GradSys
variable {n : ℕ} (X : GradSys n)
/-- `positions`, `dispersion/base.py:288` -/
noncomputable def pos (i : Fin n) (k : Fin 3) : Tape := .input X.posGrad (X.posFn i k) (X.posDot i k)
/-- `dispersion/base.py:390` -/
noncomputable def cn (i : Fin n) : Tape := .input X.cnGrad (X.cnFn i) (X.cnDot i)
/-- `dispersion/base.py:405` -/
noncomputable def q (i : Fin n) : Tape := .input (X.qGrad i) (X.qFn i) (X.qDot i)
end GradSys

namespace Tape

section weights
variable (G : GradCfg)

/-- Reference charges, `d4.py:142-154`. -/
noncomputable def refq (Z r : ℕ) : ℝ :=
  if G.rq = "eeq" then G.T.eeqQ Z r else G.T.gfnQ Z r

/-- `d4.py:177-178`, `tmp`; `d4s.py:191-198` (with mask) -/
noncomputable def tmp (w : ℝ) (Z r : ℕ) (cn : Tape) : Tape :=
  let dcn := sub cn (const (G.T.refcn Z r))
  match G.kind with
  | .d4 => exp G.env.fl (mul (neg dcn) dcn)
  | _ => sel (fun _ => 0 < G.T.refc Z r) (exp G.env.fl (mul (neg dcn) (mul dcn (const w)))) (const 0)

/-- `d4.py:187` `torch.pow(tmp, i * self.wf)`; `d4s.py:206` `torch.pow(tmp, i)` -/
noncomputable def powT (w : ℝ) (Z r : ℕ) (cn : Tape) (i : ℕ) : Tape :=
  match G.kind with
  | .d4 => pow G.env.fl (tmp G w Z r cn) (i * w)
  | _ => pow G.env.fl (tmp G w Z r cn) i

/-- `d4.py:185-194`, `d4s.py:205-213` -/
noncomputable def expw (w : ℝ) (Z r : ℕ) (cn : Tape) : Tape :=
  let p := powT G w Z r cn
  let p1 := sel (fun _ => G.T.refc Z r = 1) (add (const 0) (p 1)) (tmp G w Z r cn)
  let pf := sel (fun _ => G.T.refc Z r = 3) (add (add (add (const 0) (p 1)) (p 2)) (p 3)) p1
  sel (fun _ => 0 < G.T.refc Z r) pf (const 0)

/-- `d4.py:200-204`, `d4s.py:219-223` -/
noncomputable def norm (w : ℝ) (Z r : ℕ) (cn : Tape) : Tape :=
  sel (fun _ => 0 < G.T.refc Z r) (sum nref fun s => expw G w Z s cn) (const tiny)

/-- `d4.py:207`, `d4s.py:226` -/
noncomputable def gwTemp (w : ℝ) (Z r : ℕ) (cn : Tape) : Tape :=
  div (expw G w Z r cn) (norm G w Z r cn)

/-- `d4.py:210-217`, `d4s.py:229-236` -/
noncomputable def gw (w : ℝ) (Z r : ℕ) (cn : Tape) : Tape :=
  sel (fun y => ((gwTemp G w Z r cn).eval y).isExceptional G.env.fmax)
    (sel (fun _ => G.T.refcn Z r = Tensor.maxN (G.T.refcn Z) (nref - 1)) (const 1) (const 0))
    (gwTemp G w Z r cn)

/-- `model/base.py:326-335` `_zeta`; the outer exponentials have arguments of at most `ga` and do not
overflow -/
noncomputable def zeta (gam qref : ℝ) (qmod : Tape) : Tape :=
  let scale := expo G.env.fmax (mul (const gam) (sub (const 1)
    (div (const qref) (sub qmod (const G.env.eps)))))
  sel (fun y => (qmod.eval y).gt 0) (exp id (mul (const G.ga) (sub (const 1) scale)))
    (exp id (const G.ga))

/-- `d4.py:220-228`, `d4s.py:239-248`: weight of reference `r` -/
noncomputable def weight (w : ℝ) (Z r : ℕ) (cn q : Tape) : Tape :=
  mul (sel (fun _ => 0 < G.T.refc Z r)
    (zeta G (G.T.gam Z * G.gc) (refq G Z r + G.T.zeff Z) (add q (const (G.T.zeff Z)))) (const 0))
    (gw G w Z r cn)

end weights

section energy
variable (G : GradCfg) {n : ℕ} (X : GradSys n)

/-- `d4.py:285-289`, `d4s.py:284-290` `get_atomic_c6` (the reference coefficients are constants). -/
noncomputable def c6 (rc : ℕ → ℕ → ℕ → ℕ → ℝ) (q : Fin n → Tape) (i j : Fin n) : Tape :=
  sum nref fun a => sum nref fun b => mul (const (rc (X.Z i) (X.Z j) a b))
    (mul (weight G (G.wf (X.Z i) (X.Z j)) (X.Z i) a (X.cn i) (q i))
      (weight G (G.wf (X.Z j) (X.Z i)) (X.Z j) b (X.cn j) (q j)))

/-- `storch.cdist` (external), see `Env.cdist` (`twobody.py:143`, `threebody.py:116`). -/
noncomputable def cdist (i j : Fin n) : Tape :=
  ssqrt G.env (sub (add (sum 3 fun k => mul (X.pos i k) (X.pos i k))
    (sum 3 fun k => mul (X.pos j k) (X.pos j k)))
    (mul (const 2) (sum 3 fun k => mul (X.pos i k) (X.pos j k))))

/-- `real_pairs`, `real_triples` (`twobody.py:140`, `threebody.py:98`). -/
def pairOk (i j : Fin n) : Prop := X.Z i ≠ 0 ∧ X.Z j ≠ 0 ∧ i ≠ j
/-- `threebody.py:99` -/
def tripleOk (i j k : Fin n) : Prop := X.Z i ≠ 0 ∧ X.Z j ≠ 0 ∧ X.Z k ≠ 0 ∧ i ≠ j ∧ i ≠ k ∧ j ≠ k

/-- `twobody.py:140-145`, `threebody.py:113-119` -/
noncomputable def distance (i j : Fin n) : Tape :=
  sel (fun _ => pairOk X i j) (cdist G X i j) (const G.env.eps)

/-- `damping/functions.py:304-305` `RationalDamping._f`; the radius is a constant -/
noncomputable def rational (k : ℕ) (i j : Fin n) : Tape :=
  div (const 1) (add (npow (distance G X i j) k)
    (const ((G.a1 * Real.sqrt (3 * X.Q i * X.Q j) + G.a2) ^ k)))

/-- `twobody.py:159-168, 186-190`: `t6`, `t8`, `t10` -/
noncomputable def damped (k : ℕ) (i j : Fin n) : Tape :=
  sel (fun y => pairOk X i j ∧ ((distance G X i j).eval y).le G.cut2) (rational G X k i j) (const 0)

/-- `twobody.py:147-148, 174-201` `dispersion2`, energy of atom `i` -/
noncomputable def twoBody (rc : ℕ → ℕ → ℕ → ℕ → ℝ) (i : Fin n) : Tape :=
  let C := fun j => c6 G X rc X.q i j
  let qq := fun j => 3 * X.Q i * X.Q j
  let e6 := sum n fun j => mul (C j) (damped G X 6 i j)
  let e8 := sum n fun j => mul (mul (C j) (const (qq j))) (damped G X 8 i j)
  let e := add (mul (const G.s6) e6) (mul (const G.s8) e8)
  match G.s10 with
  | none => mul (const (-0.5)) e
  | some s10 =>
    let e10 := sum n fun j => mul (div (mul (mul (C j) (const (qq j ^ 2))) (const 49)) (const 40))
      (damped G X 10 i j)
    mul (const (-0.5)) (add e (mul (const s10) e10))

/-- `threebody.py:311-321` `C9ApproxMixin.get_c9` with weights of uncharged atoms -/
noncomputable def c9 (rc : ℕ → ℕ → ℕ → ℕ → ℝ) (i j k : Fin n) : Tape :=
  let C := fun i j => c6 G X rc (fun _ => const 0) i j
  ssqrt G.env (abs (mul (mul (C i j) (C i k)) (C j k)))

/-- `threebody.py:113-120` -/
noncomputable def dist2 (i j : Fin n) : Tape := npow (distance G X i j) 2

/-- `threebody.py:125-126` -/
noncomputable def r2 (i j k : Fin n) : Tape :=
  mul (mul (dist2 G X i j) (dist2 G X i k)) (dist2 G X j k)
/-- `threebody.py:126` -/
noncomputable def r1 (i j k : Fin n) : Tape := sqrt (r2 G X i j k)
/-- `threebody.py:128-129` -/
noncomputable def r3 (i j k : Fin n) : Tape :=
  sel (fun _ => tripleOk X i j k) (mul (r1 G X i j k) (r2 G X i j k)) (const G.env.eps)
/-- `threebody.py:129` -/
noncomputable def r5 (i j k : Fin n) : Tape :=
  sel (fun _ => tripleOk X i j k) (mul (r2 G X i j k) (r3 G X i j k)) (const G.env.eps)

/-- Critical radius, `threebody.py:254-256`, a constant. -/
noncomputable def radius (i j : Fin n) : ℝ := G.a1 * G.env.ssqrt (3 * X.Q i * X.Q j) + G.a2

/-- `threebody.py:133-145` with `damping/functions.py:364-375` `ZeroDamping._f` for order 9 -/
noncomputable def fdamp (i j k : Fin n) : Tape :=
  let r0 := radius G X i j * radius G X i k * radius G X j k
  let rr := sel (fun _ => tripleOk X i j k) (r1 G X i j k) (const 1)
  let t := mul (const 1) (sdiv G.env (const r0) rr)
  sel (fun _ => tripleOk X i j k)
    (div (const 1) (add (const 1) (mul (const 6) (pow id t (G.alp / 3))))) (const 0)

/-- `threebody.py:147-151` -/
noncomputable def angle (i j k : Fin n) : Tape :=
  let x := dist2 G X i j
  let y := dist2 G X i k
  let z := dist2 G X j k
  sel (fun _ => tripleOk X i j k)
    (mul (mul (sub (add x z) y) (add (sub x z) y)) (add (add (neg x) z) y)) (const 0)

/-- `threebody.py:153-160`; the code compares `r2jk` twice -/
noncomputable def ang (i j k : Fin n) : Tape :=
  let c2 := G.cut3 * G.cut3
  sel (fun y => ((tripleOk X i j k ∧ ((dist2 G X i j).eval y).le c2) ∧
      ((dist2 G X j k).eval y).le c2) ∧ ((dist2 G X j k).eval y).le c2)
    (add (div (mul (const 0.375) (angle G X i j k)) (r5 G X i j k)) (div (const 1) (r3 G X i j k)))
    (const 0)

/-- `threebody.py:162-163`, energy of atom `i` -/
noncomputable def threeBody (rc : ℕ → ℕ → ℕ → ℕ → ℝ) (i : Fin n) : Tape :=
  div (sum n fun j => sum n fun k => mul (mul (mul (ang G X i j k) (fdamp G X i j k)) (const G.s9))
    (c9 G X rc i j k)) (const 6)

/-- `dispersion/base.py:416-431`: the energies of the two terms, added to zero -/
noncomputable def energy (rc : ℕ → ℕ → ℕ → ℕ → ℝ) (i : Fin n) : Tape :=
  add (add (const 0) (twoBody G X rc i)) (threeBody G X rc i)

end energy

end Tape

end TadDftd4
