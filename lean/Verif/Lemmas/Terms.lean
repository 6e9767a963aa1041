import Verif.Lemmas.Kernel
import Verif.Lemmas.Dispersion2
import Verif.Lemmas.Dispersion3
import Verif.Model.Disp

/-!
# Refinement: terms of the model compute the specified energies
-/

set_option linter.unusedSimpArgs false

open scoped Classical

namespace TadDftd4

open Tensor

/-- Molecule at index `b` of a batch. -/
noncomputable def molOf (n : ℕ) (numbers : Tensor ℕ) (positions : Tensor ℝ) (cn q : Idx → ℝ)
    (r4r2 rvdw : Tensor ℝ) (b : Idx) : Spec.Mol n where
  Z i := numbers.get (i.1 :: b)
  pos i := WithLp.toLp 2 fun k => positions.get (k.1 :: i.1 :: b)
  cn i := cn (i.1 :: b)
  q i := q (i.1 :: b)
  Q i := r4r2.get (i.1 :: b)
  rvdw i j := rvdw.get (j.1 :: i.1 :: b)

/-- Radius type of the specification. -/
def Damping.specRadius (d : Damping) : Spec.Radius :=
  match d.radiusType with
  | .r4r2 => .r4r2
  | .rvdw => .rvdw

section
variable {env : Env} {T : Tables} {m : RefModel} {numbers : Tensor ℕ} {positions : Tensor ℝ}
  {R : RefCfg} {n : ℕ} {B : Shape} {cn q : Idx → ℝ} {r4r2 rvdw : Tensor ℝ} {b : Idx}

/-- Data of atom `i` entering the coefficients of a term. -/
def Spec.Mol.data {n : ℕ} (M : Spec.Mol n) (dep : Bool) (i : Fin n) : Spec.AtomData :=
  if dep then M.atom i else M.neutral i

theorem molOf_r (i j : Fin n) :
    (molOf n numbers positions cn q r4r2 rvdw b).r env.eps i j = distAt env positions 3 b i j := by
  unfold Spec.Mol.r Spec.rsqrt distAt Env.ssqrt sqDist
  congr 2
  rw [EuclideanSpace.dist_eq, Real.sq_sqrt (Finset.sum_nonneg fun k _ => sq_nonneg _),
    ← Fin.sum_univ_eq_sum_range
    (fun k => (positions.get (k :: i.1 :: b) - positions.get (k :: j.1 :: b)) ^ 2)]
  refine Finset.sum_congr rfl fun k _ => ?_
  simp [molOf, Real.dist_eq, sq_abs]

/-- The angular factor of the code is the one with cosines. -/
theorem angF_eq {x y z : ℝ} (hx : 0 < x) (hy : 0 < y) (hz : 0 < z) :
    angF x y z = (3 * Spec.cosSides x y z * Spec.cosSides x z y * Spec.cosSides y z x + 1) /
      (x * y * z) ^ 3 := by
  unfold angF angS Spec.cosSides
  field_simp
  ring

/-- What the two-body energy needs from the parameters: `S` records the values. -/
structure TwoBodyPar (env : Env) (p : Param) (d : Damping) (S : Spec.Settings) : Prop where
  noExtra : p.extra = []
  f6 : d.point env 6 false p.kw = .ok S.f6
  f8 : d.point env 8 false p.kw = .ok S.f8
  s6 : p.s6.Is Defaults.s6 S.s6
  s8 : p.s8.Is Defaults.s8 S.s8
  s10 : S10Is env d p S.s10 S.f10
  radius : S.radius = d.specRadius

/-- What the three-body energy needs from the parameters: scaling and damping. -/
structure ThreeBodyPar (env : Env) (p : Param) (d : Damping) (S : Spec.Settings) : Prop where
  s9 : p.s9.Is Defaults.s9 S.s9
  alp : ∃ alp, p.alp.Is Defaults.alp alp ∧ d.point env 9 true { alp := some (alp / 3) } = .ok S.f9

/-- Common input of all terms. -/
structure TermInput (env : Env) (T : Tables) (numbers : Tensor ℕ) (positions : Tensor ℝ)
    (m : RefModel) (R : RefCfg) (r4r2 rvdw : Tensor ℝ) (n : ℕ) (B : Shape) : Prop where
  num : numbers.Ok (n :: B)
  pos : positions.Ok (3 :: n :: B)
  model : m.IsFor env T numbers R n B
  r4r2 : r4r2.Ok (n :: B)
  rvdw : rvdw.Ok (n :: n :: B)

theorem pairEnergy_spec {c6 : Tensor ℝ} {d : Damping} {S : Spec.Settings} (hε : S.ε = env.eps)
    (hrad : S.radius = d.specRadius) (A : Fin n → Spec.AtomData) (i j : Fin n)
    (hc6 : c6.get (j.1 :: i.1 :: b) = S.c6 (A i) (A j)) :
    pairEnergy env numbers positions c6 r4r2 rvdw 3 d S.cut2 S.s6 S.s8 S.s10 S.f6 S.f8 S.f10 b i j =
      if (molOf n numbers positions cn q r4r2 rvdw b).Z i ≠ 0 ∧
        (molOf n numbers positions cn q r4r2 rvdw b).Z j ≠ 0 ∧ i ≠ j ∧
        (molOf n numbers positions cn q r4r2 rvdw b).r S.ε i j ≤ S.cut2 then
        Spec.pairTerm S (molOf n numbers positions cn q r4r2 rvdw b) A i j else 0 := by
  unfold pairEnergy
  refine ite_iff ?_ ?_ rfl
  · unfold inCut pairMask
    rw [hε, molOf_r]
    simp only [molOf, and_assoc, ne_eq, Fin.ext_iff]
  · unfold pairE Spec.pairTerm
    rw [hc6, hε, molOf_r]
    have hr : radAt d r4r2 rvdw b i j = Spec.rad S (molOf n numbers positions cn q r4r2 rvdw b) i j
        := by
      unfold radAt Spec.rad
      rw [hrad]
      cases d <;> rfl
    rw [hr]
    rfl

/-- The charges a term passes on. -/
theorem termCharges_optIs {t : Term} {qo : Option (Tensor ℝ)} (hq : D4.OptIs qo n B q) :
    D4.OptIs (t.charges qo) n B (if t.chargeDep then q else fun _ => 0) := by
  cases h : t.chargeDep <;> simp only [Term.charges, h, Bool.false_eq_true, if_false, if_true]
  · exact Or.inl ⟨rfl, rfl⟩
  · exact hq

theorem molOf_data (dep : Bool) (i : Fin n) :
    (molOf n numbers positions cn q r4r2 rvdw b).data dep i =
      ⟨numbers.get (i.1 :: b), cn (i.1 :: b), (if dep then q else fun _ => 0) (i.1 :: b)⟩ := by
  cases dep <;> rfl

/-- The two-body term computes `Spec.e2`. -/
theorem twoBody_eval {t : Term} {p : Param} {qo : Option (Tensor ℝ)} {cnT : Tensor ℝ}
    {S : Spec.Settings} {cutoff : Cutoff} (hin : TermInput env T numbers positions m R r4r2 rvdw n B)
    (ht : t.cls = .twoBody) (hc : D4.OptIs (some cnT) n B cn) (hq : D4.OptIs qo n B q)
    (hp : TwoBodyPar env p t.damping S) (hε : S.ε = env.eps) (hc6 : S.c6 = c6At env T R)
    (hcut : S.cut2 = cutoff.disp2) :
    (t.calculate env T numbers positions p cnT m qo r4r2 rvdw cutoff).Ok (n :: B) ∧
    ∀ b, InB B b → ∀ i : Fin n,
      (t.calculate env T numbers positions p cnT m qo r4r2 rvdw cutoff).get (i.1 :: b) =
        Spec.e2 S (molOf n numbers positions cn q r4r2 rvdw b)
          ((molOf n numbers positions cn q r4r2 rvdw b).data t.chargeDep) i := by
  obtain ⟨c6ok, c6get⟩ := model_c6_eval hin.model hc (termCharges_optIs hq)
  have hsh : D2Shapes numbers positions (m.atomicC6 (m.weights env T (some cnT) (t.charges qo)))
      r4r2 rvdw n 3 B := ⟨hin.num, hin.pos, c6ok, hin.r4r2, hin.rvdw⟩
  obtain ⟨-, hok, -, hget⟩ := dispersion2_eval (d := t.damping) hsh hp.noExtra hp.f6 hp.f8 hp.s6
    hp.s8 hp.s10 (some cutoff.disp2)
  simp only [Term.calculate, ht]
  refine ⟨hok, fun b hb i => ?_⟩
  rw [hget b i hb i.2, Spec.e2]
  congr 1
  rw [← Fin.sum_univ_eq_sum_range (fun j => pairEnergy env numbers positions _ r4r2 rvdw 3 t.damping
    _ S.s6 S.s8 S.s10 S.f6 S.f8 S.f10 b i.1 j)]
  refine Finset.sum_congr rfl fun j _ => ?_
  rw [Option.getD_some, ← hcut]
  exact pairEnergy_spec hε hp.radius _ i j (by
    rw [c6get b i j hb i.2 j.2, hc6, molOf_data, molOf_data])

/-- `get_atm_dispersion` computes `Spec.e3` with the given C9 coefficients and radii. -/
theorem atm_spec {c9 radii : Tensor ℝ} {d : Damping} {S : Spec.Settings} {cut alp : ℝ}
    (hnum : numbers.Ok (n :: B)) (hpos : positions.Ok (3 :: n :: B))
    (rok : radii.Ok (n :: n :: B)) (c9ok : c9.Ok (n :: n :: n :: B))
    (hf9 : d.point env 9 true { alp := some (alp / 3) } = .ok S.f9) (hε : S.ε = env.eps)
    (hcut : S.cut3 = cut) (hcut0 : 0 ≤ S.cut3) :
    (atmDispersion env numbers positions c9 radii cut d S.s9 alp).Ok (n :: B) ∧
    ∀ b, InB B b → ∀ i : Fin n,
      (atmDispersion env numbers positions c9 radii cut d S.s9 alp).get (i.1 :: b) =
        Spec.e3 S (molOf n numbers positions cn q r4r2 rvdw b)
          (fun i j k => c9.get (k.1 :: j.1 :: i.1 :: b)) (fun i j => radii.get (j.1 :: i.1 :: b))
          i := by
  obtain ⟨hok, hget⟩ := atmDispersion_eval hnum hpos rok c9ok hf9 cut S.s9
  refine ⟨hok, fun b hb i => ?_⟩
  rw [hget b i hb i.2, Spec.e3, div_eq_inv_mul, ← one_div]
  congr 1
  rw [← Fin.sum_univ_eq_sum_range (fun j => ∑ k ∈ Finset.range n, tripleEnergy env numbers positions
    _ _ 3 _ S.s9 S.f9 b i.1 j k)]
  refine Finset.sum_congr rfl fun j _ => ?_
  rw [← Fin.sum_univ_eq_sum_range (fun k => tripleEnergy env numbers positions
    _ _ 3 _ S.s9 S.f9 b i.1 j.1 k)]
  refine Finset.sum_congr rfl fun k _ => ?_
  unfold tripleEnergy
  have hsq : ∀ x : ℝ, 0 < x → (x ^ 2 ≤ cut * cut ↔ x ≤ cut) := by
    intro x hx
    rw [← sq, pow_le_pow_iff_left₀ hx.le (hcut ▸ hcut0) (by norm_num)]
  have d1 : 0 < distAt env positions 3 b i j := distAt_pos _ _ _
  have d2 : 0 < distAt env positions 3 b i k := distAt_pos _ _ _
  have d3 : 0 < distAt env positions 3 b j k := distAt_pos _ _ _
  refine ite_iff ?_ ?_ rfl
  · unfold tripleCut tripleMask Spec.withinCut3
    rw [hε, molOf_r, molOf_r, hsq _ d1, hsq _ d3, hcut]
    simp only [molOf, and_assoc, ne_eq, Fin.ext_iff]
  · rw [angF_eq d1 d2 d3]
    unfold Spec.tripleTerm
    rw [hε, molOf_r, molOf_r, molOf_r]
    simp only []
    ring

end
end TadDftd4
