import Verif.Model.Autograd

/-!
# Back-propagation to damping parameters

The graph `torch.autograd` records for the energy of an atom in `dftd4` if damping parameters require
gradients (parameter fitting) and the positions do not. Distances and dispersion coefficients are then
constants of the graph. Rules and conventions are those of `Model/Autograd.lean`.
-/

open scoped Classical

namespace TadDftd4

/-- Parameters as functions of one scalar; `s10` is `none` if not in the dictionary
(`damping/parameters/base.py:48-85`). -/
structure ParCurve where
  s6 : ℝ → ℝ
  s8 : ℝ → ℝ
  s10 : Option (ℝ → ℝ)
  s9 : ℝ → ℝ
  a1 : ℝ → ℝ
  a2 : ℝ → ℝ
  alp : ℝ → ℝ

/-- What the parameters do not influence: elements, `r4r2`, distances (`twobody.py:140-145`,
`threebody.py:113-119`, with `eps` for masked pairs), C6 and C9 coefficients, and the angular factor
`ang` of `threebody.py:147-160`. -/
structure ParSys (n : ℕ) where
  Z : Fin n → ℕ
  Q : Fin n → ℝ
  dist : Fin n → Fin n → ℝ
  c6 : Fin n → Fin n → ℝ
  c9 : Fin n → Fin n → Fin n → ℝ
  ang : Fin n → Fin n → Fin n → ℝ

namespace Tape

/-- A leaf that requires gradients (`twobody.py:177-178, 197`, `threebody.py:233-234, 252-253`). -/
noncomputable def par (f : ℝ → ℝ) : Tape := .leaf f (deriv f) 0 0

section
variable (env : Env) (cut2 : ℝ) (F : ParCurve) {n : ℕ} (X : ParSys n)

namespace Par

/-- `real_pairs`, `real_triples` (`twobody.py:140`, `threebody.py:98`). -/
def pairOk (i j : Fin n) : Prop := X.Z i ≠ 0 ∧ X.Z j ≠ 0 ∧ i ≠ j
/-- `threebody.py:99` -/
def tripleOk (i j k : Fin n) : Prop := X.Z i ≠ 0 ∧ X.Z j ≠ 0 ∧ X.Z k ≠ 0 ∧ i ≠ j ∧ i ≠ k ∧ j ≠ k

/-- `damping/functions.py:304-305` `RationalDamping._f` -/
noncomputable def rational (k : ℕ) (i j : Fin n) : Tape :=
  let radius := add (mul (par F.a1) (const (Real.sqrt (3 * X.Q i * X.Q j)))) (par F.a2)
  div (const 1) (add (const (X.dist i j ^ k)) (npow radius k))

/-- `twobody.py:159-168, 186-190`: `t6`, `t8`, `t10` -/
noncomputable def damped (k : ℕ) (i j : Fin n) : Tape :=
  sel (fun _ => pairOk X i j ∧ X.dist i j ≤ cut2) (rational F X k i j) (const 0)

/-- `twobody.py:147-148, 174-201` `dispersion2`, energy of atom `i` -/
noncomputable def twoBody (i : Fin n) : Tape :=
  let qq := fun j => 3 * X.Q i * X.Q j
  let e6 := sum n fun j => mul (const (X.c6 i j)) (damped cut2 F X 6 i j)
  let e8 := sum n fun j => mul (const (X.c6 i j * qq j)) (damped cut2 F X 8 i j)
  let e := add (mul (par F.s6) e6) (mul (par F.s8) e8)
  match F.s10 with
  | none => mul (const (-0.5)) e
  | some s10 =>
    let e10 := sum n fun j => mul (const (X.c6 i j * qq j ^ 2 * 49 / 40)) (damped cut2 F X 10 i j)
    mul (const (-0.5)) (add e (mul (par s10) e10))

/-- Critical radius, `threebody.py:252-256`. -/
noncomputable def radius (i j : Fin n) : Tape :=
  add (mul (par F.a1) (const (env.ssqrt (3 * X.Q i * X.Q j)))) (par F.a2)

/-- `r1`, `threebody.py:122-126`, or 1 for masked triples, `threebody.py:139` -/
noncomputable def rr (i j k : Fin n) : ℝ :=
  if tripleOk X i j k then √(X.dist i j ^ 2 * X.dist i k ^ 2 * X.dist j k ^ 2) else 1

/-- `threebody.py:133-145` with `damping/functions.py:364-375` `ZeroDamping._f` for order 9; `alp` is a
tensor (`threebody.py:93-94`), and so is the exponent `alp / 3`. -/
noncomputable def fdamp (i j k : Fin n) : Tape :=
  let r0 := mul (mul (radius env F X i j) (radius env F X i k)) (radius env F X j k)
  let t := mul (const 1) (sdiv env r0 (const (rr X i j k)))
  sel (fun _ => tripleOk X i j k)
    (div (const 1) (add (const 1) (mul (const 6) (tpow t (div (par F.alp) (const 3)))))) (const 0)

/-- `threebody.py:162-163`, energy of atom `i` -/
noncomputable def threeBody (i : Fin n) : Tape :=
  div (sum n fun j => sum n fun k => mul (mul (mul (const (X.ang i j k)) (fdamp env F X i j k))
    (par F.s9)) (const (X.c9 i j k))) (const 6)

/-- `dispersion/base.py:416-431`: the energies of the two terms, added to zero -/
noncomputable def energy (i : Fin n) : Tape :=
  add (add (const 0) (twoBody cut2 F X i)) (threeBody env F X i)

end Par
end
end Tape

end TadDftd4
