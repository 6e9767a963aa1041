import Mathlib.Analysis.SpecialFunctions.Pow.Real
import Verif.Model.RefModel

/-!
# Floating point evaluation of the energy expressions

The other parts of the model compute with real numbers. Here the expressions of
`/repo/src/tad_dftd4/dispersion/twobody.py:89-201` (rational damping) and
`threebody.py:54-163` are written as trees of operations, together with all values that a machine can
obtain for them: the result of every operation is wrong by a relative error of at most `u`, sums are
evaluated in any order, and the comparisons with cutoffs see the rounded values. Overflow and underflow
are excluded by this.

Input are the elements (exact), distances, C6 coefficients and `r4r2`, each known up to a number of
roundings, and the parameters of the damping function.

The second part does the same for the weights of the reference systems (`model/d4.py:142-228`,
`model/d4s.py:148-248`, `model/base.py:308-335`) and the C6 coefficients (`d4.py:268-289`,
`d4s.py:268-290`). Input of these are coordination numbers, charges and reference C6 coefficients, known
up to a number of roundings, and the tables, the numbers of which are rounded once. The Gaussians and
their quotients are always computed in double precision, so these are separate expressions (`quot`).

Simplification: a quantity that is used in two places (`qq`, `r2`) is an expression of its own in each of
them, so it may be rounded differently; this only adds results.
-/

open scoped Classical

namespace TadDftd4.Rounded

/-- `z` can be the result of an operation with exact result `x` (IEEE 754 without underflow and overflow). -/
def Fl (u x z : ℝ) : Prop := |z - x| ≤ u * |x|

/-- `z` is the non-negative number `x` after at most `k` roundings
(inputs of `dispersion/base.py:419-429`). -/
def Near (u : ℝ) (k : ℕ) (x z : ℝ) : Prop := (1 - u) ^ k * x ≤ z ∧ (1 - u) ^ k * z ≤ x

/-- `torch.sum`: numbers are added in pairs, in any order (`twobody.py:174-175`, `threebody.py:163`). -/
inductive SumOf (u : ℝ) {n : ℕ} (v : Fin n → ℝ) : Multiset (Fin n) → ℝ → Prop
  | one (i : Fin n) : SumOf u v {i} (v i)
  | add {a b : Multiset (Fin n)} {s t z : ℝ} : SumOf u v a s → SumOf u v b t → Fl u (s + t) z →
      SumOf u v (a + b) z

/-- Expressions. `inp x k` is an input with exact value `x` that has been rounded `k` times, `const`
a number that is represented exactly, `rpow a p q k` a power with a real exponent that is the quotient of
two numbers, known up to `k` roundings, `sel a b x y` is `torch.where(a <= b, x, y)`
(operations of `twobody.py:134-201`, `threebody.py:91-163`, `model/d4.py:177-228`). -/
inductive Ex
  | inp (x : ℝ) (k : ℕ)
  | const (c : ℝ)
  | neg (a : Ex)
  | add (a b : Ex)
  | sub (a b : Ex)
  | mul (a b : Ex)
  | div (a b : Ex)
  | sqrt (a : Ex)
  | abs (a : Ex)
  | clampMin (a : Ex) (c : ℝ)
  | npow (a : Ex) (k : ℕ)
  | rpow (a : Ex) (p q : ℝ) (k : ℕ)
  | exp (a : Ex)
  | sum (n : ℕ) (f : Fin n → Ex)
  | sel (a b x y : Ex)

namespace Ex

/-- Exact value (real arithmetic). -/
noncomputable def val : Ex → ℝ
  | inp x _ => x
  | const c => c
  | neg a => -a.val
  | add a b => a.val + b.val
  | sub a b => a.val - b.val
  | mul a b => a.val * b.val
  | div a b => a.val / b.val
  | sqrt a => √a.val
  | abs a => |a.val|
  | clampMin a c => max a.val c
  | npow a k => a.val ^ k
  | rpow a p q _ => a.val ^ (p / q)
  | exp a => Real.exp a.val
  | sum _ f => ∑ i, (f i).val
  | sel a b x y => if a.val ≤ b.val then x.val else y.val

/-- `Rounds u e z`: a machine with relative error `u` can compute `z` for `e`. Changing the sign,
absolute values and `clamp` are exact (IEEE 754; accuracy of the functions of PyTorch). -/
inductive Rounds (u : ℝ) : Ex → ℝ → Prop
  | inp {x z : ℝ} {k : ℕ} : Near u k x z → Rounds u (inp x k) z
  | const (c : ℝ) : Rounds u (const c) c
  | neg {a : Ex} {x : ℝ} : Rounds u a x → Rounds u (neg a) (-x)
  | add {a b : Ex} {x y z : ℝ} : Rounds u a x → Rounds u b y → Fl u (x + y) z → Rounds u (add a b) z
  | sub {a b : Ex} {x y z : ℝ} : Rounds u a x → Rounds u b y → Fl u (x - y) z → Rounds u (sub a b) z
  | mul {a b : Ex} {x y z : ℝ} : Rounds u a x → Rounds u b y → Fl u (x * y) z → Rounds u (mul a b) z
  | div {a b : Ex} {x y z : ℝ} : Rounds u a x → Rounds u b y → Fl u (x / y) z → Rounds u (div a b) z
  | sqrt {a : Ex} {x z : ℝ} : Rounds u a x → Fl u √x z → Rounds u (sqrt a) z
  | abs {a : Ex} {x : ℝ} : Rounds u a x → Rounds u (abs a) |x|
  | clampMin {a : Ex} {c x : ℝ} : Rounds u a x → Rounds u (clampMin a c) (max x c)
  | npow {a : Ex} {k : ℕ} {x z : ℝ} : Rounds u a x → Fl u (x ^ k) z → Rounds u (npow a k) z
  | rpow {a : Ex} {p q x r z : ℝ} {k : ℕ} : Rounds u a x → Fl (k * u) (p / q) r → Fl u (x ^ r) z →
      Rounds u (rpow a p q k) z
  | exp {a : Ex} {x z : ℝ} : Rounds u a x → Fl u (Real.exp x) z → Rounds u (exp a) z
  | sum {n : ℕ} {f : Fin n → Ex} {v : Fin n → ℝ} {z : ℝ} : (∀ i, Rounds u (f i) (v i)) →
      SumOf u v Finset.univ.val z → Rounds u (sum n f) z
  | sel_le {a b e f : Ex} {x y z : ℝ} : Rounds u a x → Rounds u b y → x ≤ y → Rounds u e z →
      Rounds u (sel a b e f) z
  | sel_gt {a b e f : Ex} {x y z : ℝ} : Rounds u a x → Rounds u b y → y < x → Rounds u f z →
      Rounds u (sel a b e f) z

end Ex

/-- `storch.cdist` of two points with exact coordinates (`twobody.py:143`, `threebody.py:116`; the function
is not part of the repository, see `Env.cdist`): quadratic expansion, then `storch.sqrt`. -/
noncomputable def cdistEx (ε : ℝ) (x y : Fin 3 → ℝ) : Ex :=
  let dot := fun v w : Fin 3 → ℝ => Ex.sum 3 fun k => Ex.mul (Ex.const (v k)) (Ex.const (w k))
  Ex.sqrt (Ex.clampMin (Ex.sub (Ex.add (dot x x) (dot y y)) (Ex.mul (Ex.const 2) (dot x y))) ε)

/-- Input of an energy calculation: elements, distances, C6 coefficients with and without charges,
`r4r2`; numbers of roundings of distances, coefficients and `r4r2`; parameters (`s10` is optional) and
cutoffs (`twobody.py:89-101`, `threebody.py:54-64`). -/
structure Input (n : ℕ) where
  Z : Fin n → ℕ
  d : Fin n → Fin n → ℝ
  c6 : Fin n → Fin n → ℝ
  c6n : Fin n → Fin n → ℝ
  Q : Fin n → ℝ
  kd : ℕ
  kc : ℕ
  kQ : ℕ
  ε : ℝ
  s6 : ℝ
  s8 : ℝ
  s10 : Option ℝ
  s9 : ℝ
  a1 : ℝ
  a2 : ℝ
  alp : ℝ
  cut2 : ℝ
  cut3 : ℝ

namespace Input
open Ex
variable {n : ℕ} (X : Input n)

/-- `real_pairs`, `real_triples` (`twobody.py:140`). -/
def Pair (i j : Fin n) : Prop := X.Z i ≠ 0 ∧ X.Z j ≠ 0 ∧ i ≠ j
/-- `threebody.py:99` -/
def Triple (i j k : Fin n) : Prop := X.Z i ≠ 0 ∧ X.Z j ≠ 0 ∧ X.Z k ≠ 0 ∧ i ≠ j ∧ i ≠ k ∧ j ≠ k

/-- `twobody.py:140-145` (for pairs that are not masked) -/
noncomputable def dist (i j : Fin n) : Ex := inp (X.d i j) X.kd

/-- `twobody.py:147` -/
noncomputable def qq (i j : Fin n) : Ex :=
  mul (mul (const 3) (inp (X.Q i) X.kQ)) (inp (X.Q j) X.kQ)

/-- `damping/functions.py:304-305` `RationalDamping._f` -/
noncomputable def rational (k : ℕ) (i j : Fin n) : Ex :=
  div (const 1) (add (npow (X.dist i j) k)
    (npow (add (mul (const X.a1) (sqrt (X.qq i j))) (const X.a2)) k))

/-- `twobody.py:159-168, 186-190` -/
noncomputable def damped (k : ℕ) (i j : Fin n) : Ex :=
  if X.Pair i j then sel (X.dist i j) (const X.cut2) (X.rational k i j) (const 0) else const 0

/-- `twobody.py:148, 185` -/
noncomputable def coeff6 (i j : Fin n) : Ex := inp (X.c6 i j) X.kc
/-- `twobody.py:148` -/
noncomputable def coeff8 (i j : Fin n) : Ex := mul (X.coeff6 i j) (X.qq i j)
/-- `twobody.py:185` -/
noncomputable def coeff10 (i j : Fin n) : Ex :=
  div (mul (mul (X.coeff6 i j) (npow (X.qq i j) 2)) (const 49)) (const 40)

/-- `twobody.py:174-201`, energy of atom `i` -/
noncomputable def two (i : Fin n) : Ex :=
  let e6 := sum n fun j => mul (X.coeff6 i j) (X.damped 6 i j)
  let e8 := sum n fun j => mul (X.coeff8 i j) (X.damped 8 i j)
  let e := add (mul (const X.s6) e6) (mul (const X.s8) e8)
  match X.s10 with
  | none => mul (const (-0.5)) e
  | some s10 =>
    let e10 := sum n fun j => mul (X.coeff10 i j) (X.damped 10 i j)
    mul (const (-0.5)) (add e (mul (const s10) e10))

/-- `threebody.py:311-321`; `storch.sqrt` clamps its argument -/
noncomputable def c9 (i j k : Fin n) : Ex :=
  let c := fun i j => inp (X.c6n i j) X.kc
  sqrt (clampMin (abs (mul (mul (c i j) (c i k)) (c j k))) X.ε)

/-- `threebody.py:252-256` -/
noncomputable def radius (i j : Fin n) : Ex :=
  add (mul (const X.a1) (sqrt (clampMin (X.qq i j) X.ε))) (const X.a2)

/-- `threebody.py:113-129` (for triples that are not masked) -/
noncomputable def d2 (i j : Fin n) : Ex := npow (X.dist i j) 2
/-- `threebody.py:125` -/
noncomputable def r2 (i j k : Fin n) : Ex := mul (mul (X.d2 i j) (X.d2 i k)) (X.d2 j k)
/-- `threebody.py:126` -/
noncomputable def r1 (i j k : Fin n) : Ex := sqrt (X.r2 i j k)
/-- `threebody.py:128` -/
noncomputable def r3 (i j k : Fin n) : Ex := mul (X.r1 i j k) (X.r2 i j k)
/-- `threebody.py:129` -/
noncomputable def r5 (i j k : Fin n) : Ex := mul (X.r2 i j k) (X.r3 i j k)

/-- `threebody.py:105-109, 133-145` with `damping/functions.py:370-375` `ZeroDamping._f`; the exponent
is `alp / 3.0` -/
noncomputable def fdamp (i j k : Fin n) : Ex :=
  let r0 := mul (mul (X.radius i j) (X.radius i k)) (X.radius j k)
  let t := mul (const 1) (div r0 (X.r1 i j k))
  div (const 1) (add (const 1) (mul (const 6) (rpow t X.alp 3 1)))

/-- `threebody.py:147-151` -/
noncomputable def angle (i j k : Fin n) : Ex :=
  let x := X.d2 i j
  let y := X.d2 i k
  let z := X.d2 j k
  mul (mul (sub (add x z) y) (add (sub x z) y)) (add (add (neg x) z) y)

/-- `threebody.py:96, 153-160`; the code compares `r2jk` twice -/
noncomputable def ang (i j k : Fin n) : Ex :=
  let c2 := mul (const X.cut3) (const X.cut3)
  let a := add (div (mul (const 0.375) (X.angle i j k)) (X.r5 i j k)) (div (const 1) (X.r3 i j k))
  sel (X.d2 i j) c2 (sel (X.d2 j k) c2 (sel (X.d2 j k) c2 a (const 0)) (const 0)) (const 0)

/-- `threebody.py:162` -/
noncomputable def triple (i j k : Fin n) : Ex :=
  if X.Triple i j k then mul (mul (mul (X.ang i j k) (X.fdamp i j k)) (const X.s9)) (X.c9 i j k)
  else const 0

/-- `threebody.py:163`, energy of atom `i`; the sum is over two dimensions -/
noncomputable def three (i : Fin n) : Ex :=
  div (sum (n * n) fun m => X.triple i (finProdFinEquiv.symm m).1 (finProdFinEquiv.symm m).2) (const 6)

/-- `dispersion/base.py:416-431`: the energies of the two terms, added to zero -/
noncomputable def energy (i : Fin n) : Ex := add (add (const 0) (X.two i)) (X.three i)

/-- The energy from distances and C6 coefficients that have been computed before (each of them once)
(`twobody.py:72-86`, `threebody.py:223-235`). -/
def computed (d c6 c6n : Fin n → Fin n → ℝ) : Input n :=
  { X with d := d, c6 := c6, c6n := c6n, kd := 0, kc := 0 }

end Input

/-! ## Reference weights and C6 coefficients -/

/-- A number of any sign that has been rounded `k` times (inputs of `model/d4.py:135-228`). -/
noncomputable def signed (x : ℝ) (k : ℕ) : Ex :=
  if 0 ≤ x then Ex.inp x k else Ex.neg (Ex.inp (-x) k)

/-- Input of `weight_references` for one atom: tables, model, `ga`, `gc`, reference charges, `eps` and
`max` of the data type; element, coordination number and charge of the atom, exponent `wf` (for D4S that
for the element of the partner); numbers of roundings of coordination number, charge and exponent
(`model/d4.py:110-160`, `d4s.py:109-171`). -/
structure RefInput where
  T : Tables
  kind : ModelKind
  ga : ℝ
  gc : ℝ
  refq : ℕ → ℕ → ℝ
  ε : ℝ
  fmax : ℝ
  Z : ℕ
  cn : ℝ
  q : ℝ
  w : ℝ
  kn : ℕ
  kq : ℕ
  kw : ℕ

namespace RefInput
open Ex
variable (X : RefInput)

/-- `d4.py:177`, `d4s.py:191` -/
noncomputable def dcn (r : ℕ) : Ex := sub (signed X.cn X.kn) (signed (X.T.refcn X.Z r) 1)

/-- `d4.py:178`; `d4s.py:197-198` -/
noncomputable def tmp (r : ℕ) : Ex :=
  match X.kind with
  | .d4 => exp (mul (neg (X.dcn r)) (X.dcn r))
  | _ => exp (mul (mul (neg (X.dcn r)) (X.dcn r)) (inp X.w X.kw))

/-- `torch.pow(tmp, i * self.wf)`, `d4.py:187`; `torch.pow(tmp, i)`, `d4s.py:207` -/
noncomputable def pow (r i : ℕ) : Ex :=
  match X.kind with
  | .d4 => rpow (X.tmp r) (i * X.w) 1 X.kw
  | _ => npow (X.tmp r) i

/-- `d4.py:185-194`, `d4s.py:205-213` -/
noncomputable def expw (r : ℕ) : Ex :=
  if 0 < X.T.refc X.Z r then
    if X.T.refc X.Z r = 3 then add (add (add (const 0) (X.pow r 1)) (X.pow r 2)) (X.pow r 3)
    else if X.T.refc X.Z r = 1 then add (const 0) (X.pow r 1)
    else X.tmp r
  else const 0

/-- `d4.py:200-204`, `d4s.py:219-223` -/
noncomputable def norm (r : ℕ) : Ex :=
  if 0 < X.T.refc X.Z r then sum nref fun s => X.expw s else const tiny

/-- `expw / norm`, `d4.py:207`, `d4s.py:226` -/
noncomputable def quot (r : ℕ) : Ex := div (X.expw r) (X.norm r)

/-- `d4.py:207-217`, `d4s.py:226-236` for a quotient `g`: its conversion is one more rounding, it is never
NaN here, and `top` is the comparison of the reference coordination number with the largest one. -/
noncomputable def gw (g : Ex) (r : ℕ) : Ex :=
  let top := ∀ s < nref, X.T.refcn X.Z s ≤ X.T.refcn X.Z r
  sel (mul (const 1) g) (const X.fmax) (mul (const 1) g) (const (if top then 1 else 0))

/-- `base.py:326-335` with the arguments of `d4.py:220-225`, `d4s.py:239-245` -/
noncomputable def zeta (r : ℕ) : Ex :=
  let zeff := inp (X.T.zeff X.Z) 1
  let gam := mul (inp (X.T.gam X.Z) 1) (const X.gc)
  let qref := add (signed (X.refq X.Z r) 1) zeff
  let qmod := add (signed X.q X.kq) zeff
  let scale := exp (mul gam (sub (const 1) (div qref (sub qmod (const X.ε)))))
  if 0 < X.T.refc X.Z r then
    sel qmod (const 0) (exp (const X.ga)) (exp (mul (const X.ga) (sub (const 1) scale)))
  else const 0

/-- `d4.py:228`, `d4s.py:248` -/
noncomputable def wt (g : Ex) (r : ℕ) : Ex := mul (X.zeta r) (X.gw g r)

end RefInput

/-- `d4.py:283-289`, `d4s.py:284-290`: the weights of the first atom are contracted first. `rc` are the
reference C6 coefficients, `X` and `Y` the two atoms, `g` and `h` their normalised Gaussians, which have
been computed in double precision. -/
noncomputable def c6From (rc : ℕ → ℕ → ℝ) (kr : ℕ) (X Y : RefInput) (g h : ℕ → Ex) : Ex :=
  Ex.sum nref fun b => Ex.mul
    (Ex.sum nref fun a => Ex.mul (Ex.inp (rc a b) kr) (X.wt (g a) a)) (Y.wt (h b) b)

end TadDftd4.Rounded
