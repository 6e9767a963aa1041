import Verif.Lemmas.Setup
import Verif.Lemmas.Forces
import Verif.Lemmas.ForceSymmetry
import Verif.Props.C03

/-!
# C42: forces exist, add up to zero, exert no net torque, and vanish on padding

The total energy of one system of a batch is considered as function of the positions of this system.
Specification: `Spec/Forces.lean` (`force`, `Generic`).
-/

open scoped Classical Matrix

namespace TadDftd4

open Tensor

section
variable {env : Env} {T : Tables} {ext : Ext} {numbers : Tensor ℕ}
  {charge : Tensor ℝ} {p : Param}
  {o : DftOpts} {n : ℕ} {B : Shape} {b : Idx} {R : RefCfg} {cn : Spec.CN} {eeq : Spec.EEQ}
  {P : Spec.D4Par} {E : (Fin n → Spec.E3) → ℝ} {m : WithTop ℕ∞} {x : Fin n → Spec.E3}

/-- `dftd4` is called with system `b` of the batch at the positions `x`, and `E x` is the sum of the
energies returned for this system. -/
structure TotalEnergy (env : Env) (T : Tables) (ext : Ext) (numbers : Tensor ℕ)
    (positions : (Fin n → Spec.E3) → Tensor ℝ) (charge : Tensor ℝ) (p : Param) (o : DftOpts)
    (B : Shape) (R : RefCfg) (cn : Spec.CN) (eeq : Spec.EEQ) (P : Spec.D4Par) (b : Idx)
    (E : (Fin n → Spec.E3) → ℝ) : Prop where
  call : ∀ x, Call env T ext numbers (positions x) charge p o n B R cn eeq P
  batch : InB B b
  at_pos : ∀ x, coords (positions x) n b = x
  total : ∀ x e, dftd4 env T ext numbers (positions x) charge p o = .ok e →
    E x = ∑ i : Fin n, e.get (i.1 :: b)

variable {positions : (Fin n → Spec.E3) → Tensor ℝ}

theorem TotalEnergy.eval (h : TotalEnergy env T ext numbers positions charge p o B R cn eeq P b E)
    (x : Fin n → Spec.E3) : E x = ∑ i, Spec.energy (d4Computed env T R P (o.opts.cutoff.getD {}))
      (system T cn eeq numbers (positions x) charge o.opts n b) i := by
  obtain ⟨e, h1, -, h3⟩ := (h.call x).eval
  rw [h.total x e h1]
  exact Finset.sum_congr rfl fun i _ => h3 b h.batch i

/-- At a generic geometry the total energy is as often continuously differentiable as the
coordination numbers and charges of the real atoms are: forces, Hessians, ... exist. -/
theorem C42_smooth (h : TotalEnergy env T ext numbers positions charge p o B R cn eeq P b E)
    (hfl : env.fl = id) (hT : T.Physical R.rq) (hgc : 0 < R.gc)
    (hcn : ∀ i, elements numbers n b i ≠ 0 →
      ContDiffAt ℝ m (fun y => cn n (elements numbers n b) y i) x)
    (heeq : o.opts.q = none → ∀ i, elements numbers n b i ≠ 0 → ContDiffAt ℝ m (fun y =>
      eeq n (o.opts.cutoff.getD {}).cnEeq (elements numbers n b) y (charge.get b) i) x)
    (hg : Spec.Generic (Spec.d4Settings (R.spec T env.eps) env.eps P (o.opts.cutoff.getD {}).disp2
      (o.opts.cutoff.getD {}).disp3) (R.spec T env.eps)
      (system T cn eeq numbers (positions x) charge o.opts n b)) :
    ContDiffAt ℝ m E x := by
  have hE : E = fun y => ∑ i, Spec.energy (Spec.d4Settings (R.spec T env.eps) env.eps P
      (o.opts.cutoff.getD {}).disp2 (o.opts.cutoff.getD {}).disp3)
      (system T cn eeq numbers (positions y) charge o.opts n b) i := by
    funext y
    rw [h.eval y]
    exact Finset.sum_congr rfl fun i _ =>
      energy_d4Settings hfl hT hgc ((h.call y).args.Z_lt h.batch) i
  rw [hE]
  refine ContDiffAt.sum fun i _ => Spec.contDiffAt_energy
    (M := fun y => system T cn eeq numbers (positions y) charge o.opts n b)
    env.eps_pos env.eps_pos ?_ hg i
  constructor
  · intro y; rfl
  · intro y; rfl
  · intro i _
    have : (fun y => (system T cn eeq numbers (positions y) charge o.opts n b).pos i) =
        fun y : Fin n → Spec.E3 => y i := by
      funext y; exact congrFun (h.at_pos y) i
    rw [this]
    exact (contDiff_apply ℝ Spec.E3 i).contDiffAt
  · intro i hi
    show ContDiffAt ℝ m (fun y => cn n (elements numbers n b) (coords (positions y) n b) i) x
    simp only [h.at_pos]
    exact hcn i hi
  · intro i hi
    cases hq : o.opts.q with
    | some q =>
      have : (fun y => (system T cn eeq numbers (positions y) charge o.opts n b).q i) =
          fun _ => q.get (i.1 :: b) := by funext y; simp only [system, hq]
      rw [this]
      exact contDiffAt_const
    | none =>
      have : (fun y => (system T cn eeq numbers (positions y) charge o.opts n b).q i) =
          fun y => eeq n (o.opts.cutoff.getD {}).cnEeq (elements numbers n b) y (charge.get b) i := by
        funext y; simp only [system, hq, h.at_pos]
      rw [this]
      exact heeq hq i hi

/-- Moving the system by an isometry does not change its total energy. -/
theorem TotalEnergy.isometry
    (h : TotalEnergy env T ext numbers positions charge p o B R cn eeq P b E)
    (hcn : cn.Invariant) (heeq : eeq.Invariant) (g : Spec.E3 ≃ᵢ Spec.E3) (x : Fin n → Spec.E3) :
    E (fun i => g (x i)) = E x := by
  obtain ⟨e, e', h1, h2, h3⟩ := C03_isometry (h.call x)
    ((h.call fun i => g (x i)).args.pos) hcn heeq
  rw [h.total _ e' h2, h.total _ e h1]
  refine Finset.sum_congr rfl fun i _ => h3 b h.batch g (fun i => ?_) i
  rw [h.at_pos, h.at_pos]

/-- The forces on all atoms of a system add up to zero. -/
theorem C42_forces_sum_zero
    (h : TotalEnergy env T ext numbers positions charge p o B R cn eeq P b E)
    (hcn : cn.Invariant) (heeq : eeq.Invariant) (hd : DifferentiableAt ℝ E x) (k : Fin 3) :
    ∑ i, Spec.force E x i k = 0 :=
  force_sum_zero (h.isometry hcn heeq) hd k

/-- The torque of the forces about the origin is zero. -/
theorem C42_torque_zero
    (h : TotalEnergy env T ext numbers positions charge p o B R cn eeq P b E)
    (hcn : cn.Invariant) (heeq : eeq.Invariant) (hd : DifferentiableAt ℝ E x) :
    ∑ i, (x i).ofLp ⨯₃ Spec.force E x i = 0 :=
  torque_zero (h.isometry hcn heeq) hd

/-- There is no force on padding atoms. -/
theorem C42_padding_force_zero
    (h : TotalEnergy env T ext numbers positions charge p o B R cn eeq P b E)
    (hcn : cn.IgnoresPaddingPositions) (heeq : eeq.IgnoresPaddingPositions)
    {i : Fin n} (hi : elements numbers n b i = 0) (k : Fin 3) : Spec.force E x i k = 0 := by
  have hE : ∀ y, (∀ j, elements numbers n b j ≠ 0 → y j = x j) → E y = E x := by
    intro y hy
    rw [h.eval, h.eval]
    refine Finset.sum_congr rfl fun j _ => Spec.energy_congr_real
      (M := system T cn eeq numbers (positions y) charge o.opts n b)
      (M' := system T cn eeq numbers (positions x) charge o.opts n b) rfl rfl ?_ ?_ ?_ rfl j
    · intro j hj
      show coords _ n b j = coords _ n b j
      rw [h.at_pos, h.at_pos]; exact hy j hj
    · intro j hj
      show cn n _ (coords _ n b) j = cn n _ (coords _ n b) j
      rw [h.at_pos, h.at_pos]
      exact hcn n _ y x hy j hj
    · intro j hj
      show (match o.opts.q with
        | some q => q.get (j.1 :: b)
        | none => eeq n _ _ (coords _ n b) _ j) = (match o.opts.q with
        | some q => q.get (j.1 :: b)
        | none => eeq n _ _ (coords _ n b) _ j)
      rw [h.at_pos, h.at_pos]
      cases o.opts.q with
      | some q => rfl
      | none => exact heeq n _ _ y x _ hy j hj
  exact force_zero_of_indep (fun y hy => hE y fun j hj => hy j (by rintro rfl; exact hj hi)) k

end

/-! ## A concrete case: hydrogen fluoride (with a padding atom) next to water -/

namespace Demo

/-- The batch of water and hydrogen fluoride, the latter at the positions `x`. -/
noncomputable def positionsAt (x : Fin 3 → Spec.E3) : Tensor ℝ where
  err := none
  shape := [3, 3, 2]
  get
    | [k, i, 1] => if h : k < 3 ∧ i < 3 then x ⟨i, h.2⟩ ⟨k, h.1⟩ else 0
    | idx => positions.get idx

noncomputable def totalHF (x : Fin 3 → Spec.E3) : ℝ :=
  match dftd4 env T ext numbers (positionsAt x) charge param with
  | .ok e => ∑ i : Fin 3, e.get [i.1, 1]
  | .error _ => 0

theorem totalEnergy : TotalEnergy env T ext numbers positionsAt charge param {} [2] .d4 cn eeq par
    [1] totalHF where
  call x := { call with args := { validArgs with pos := ⟨rfl, rfl⟩ } }
  batch := by simp [InB]
  at_pos x := by
    funext i
    ext k
    simp [coords, positionsAt, k.2, i.2]
  total x e he := by
    simp only [totalHF, he]

theorem cn_smooth {n : ℕ} {Z : Fin n → ℕ} {x : Fin n → Spec.E3} {m : WithTop ℕ∞}
    (h : ∀ i j, Z i ≠ 0 → Z j ≠ 0 → i ≠ j → x i ≠ x j) (i : Fin n) :
    ContDiffAt ℝ m (fun y => cn n Z y i) x := by
  unfold cn
  refine ContDiffAt.sum fun j _ => ?_
  by_cases hc : Z i ≠ 0 ∧ Z j ≠ 0 ∧ i ≠ j
  · simp only [if_pos hc]
    exact ((contDiff_apply ℝ Spec.E3 i).contDiffAt.dist ℝ (contDiff_apply ℝ Spec.E3 j).contDiffAt
      (h i j hc.1 hc.2.1 hc.2.2)).neg.exp
  · simp only [if_neg hc]
    exact contDiffAt_const

theorem cn_ignores : cn.IgnoresPaddingPositions := by
  intro n Z pos pos' h i hi
  unfold cn
  refine Finset.sum_congr rfl fun j _ => ?_
  by_cases hj : Z j ≠ 0
  · rw [h i hi, h j hj]
  · rw [if_neg (fun hc => hj hc.2.1), if_neg (fun hc => hj hc.2.1)]

theorem eeq_ignores : eeq.IgnoresPaddingPositions := by
  intro n c Z pos pos' Q h i hi
  rfl

/-- The positions of hydrogen fluoride: bond length 1.8, the padding atom on top of fluorine. -/
noncomputable def xHF : Fin 3 → Spec.E3 := fun i => EuclideanSpace.single 0 (if i = 1 then 1.8 else 0)

theorem dist_xHF {i j : Fin 3} (hi : elements numbers 3 [1] i ≠ 0) (hj : elements numbers 3 [1] j ≠ 0)
    (hij : i ≠ j) : dist (xHF i) (xHF j) = 1.8 := by
  fin_cases i <;> fin_cases j <;> simp [elements, numbers] at hi hj hij
  all_goals
    simp [xHF, EuclideanSpace.dist_eq, Fin.sum_univ_three]
    norm_num [Real.sqrt_sq_eq_abs]

theorem generic_HF : Spec.Generic (Spec.d4Settings (RefCfg.d4.spec T env.eps) env.eps par 60 40)
    (RefCfg.d4.spec T env.eps) (system T cn eeq numbers (positionsAt xHF) charge {} 3 [1]) := by
  have hp : coords (positionsAt xHF) 3 [1] = xHF := totalEnergy.at_pos xHF
  constructor
  · intro i j hi hj hij
    show (1 / 2 ^ 52 : ℝ) < dist (coords (positionsAt xHF) 3 [1] i) _ ^ 2
    show (1 / 2 ^ 52 : ℝ) < dist (coords (positionsAt xHF) 3 [1] i)
      (coords (positionsAt xHF) 3 [1] j) ^ 2
    rw [hp, dist_xHF hi hj hij]
    norm_num
  · intro i j hi hj hij
    show dist (coords (positionsAt xHF) 3 [1] i) (coords (positionsAt xHF) 3 [1] j) ≠ 60
    rw [hp, dist_xHF hi hj hij]
    norm_num
  · intro i j hi hj hij
    show dist (coords (positionsAt xHF) 3 [1] i) (coords (positionsAt xHF) 3 [1] j) ≠ 40
    rw [hp, dist_xHF hi hj hij]
    norm_num
  · intro i hi
    have hq : (0 : ℝ) ≤ eeq 3 25 (elements numbers 3 [1]) (coords (positionsAt xHF) 3 [1])
        (charge.get [1]) i := by
      unfold eeq charge
      split
      · exact div_nonneg zero_le_one (Finset.sum_nonneg fun j _ => by split <;> norm_num)
      · exact le_refl _
    have hz : (1 : ℝ) ≤ (elements numbers 3 [1] i : ℕ) := by
      exact_mod_cast Nat.one_le_iff_ne_zero.2 hi
    show (1 / 2 ^ 52 : ℝ) < eeq 3 25 (elements numbers 3 [1]) (coords (positionsAt xHF) 3 [1])
        (charge.get [1]) i + (elements numbers 3 [1] i : ℕ)
    have : (1 / 2 ^ 52 : ℝ) < 1 := by norm_num
    linarith
  · intro i hi
    have hz : (1 : ℝ) ≤ (elements numbers 3 [1] i : ℕ) := by
      exact_mod_cast Nat.one_le_iff_ne_zero.2 hi
    show (1 / 2 ^ 52 : ℝ) < (elements numbers 3 [1] i : ℕ)
    have : (1 / 2 ^ 52 : ℝ) < 1 := by norm_num
    linarith
  · intro i j k hi hj hk hij hik hjk
    exfalso
    change elements numbers 3 [1] i ≠ 0 at hi
    change elements numbers 3 [1] j ≠ 0 at hj
    change elements numbers 3 [1] k ≠ 0 at hk
    fin_cases i <;> fin_cases j <;> fin_cases k <;>
      simp [elements, numbers] at hi hj hk hij hik hjk
  · intro i j _ _ _
    unfold Spec.R0
    have h1 : (0 : ℝ) ≤ par.a1 := by norm_num [par]
    have h2 : (0 : ℝ) ≤ par.a2 := by norm_num [par]
    exact add_nonneg (mul_nonneg h1 (Spec.rsqrt_nonneg _ _)) h2

/-- Hydrogen fluoride meets all hypotheses: infinitely often differentiable energy, no net force, no
net torque, no force on the padding atom. -/
example : ContDiffAt ℝ ⊤ totalHF xHF ∧ (∀ k, ∑ i, Spec.force totalHF xHF i k = 0) ∧
    ∑ i, (xHF i).ofLp ⨯₃ Spec.force totalHF xHF i = 0 ∧ ∀ k, Spec.force totalHF xHF 2 k = 0 := by
  have hs : ContDiffAt ℝ ⊤ totalHF xHF := by
    refine C42_smooth totalEnergy rfl physical (by norm_num [RefCfg.d4]) (fun i _ => ?_)
      (fun _ i _ => ?_) generic_HF
    · refine cn_smooth (fun i j hi hj hij he => ?_) i
      have := dist_xHF hi hj hij
      rw [he, dist_self] at this
      norm_num at this
    · unfold eeq
      exact contDiffAt_const
  have hd : DifferentiableAt ℝ totalHF xHF := hs.differentiableAt (by simp)
  exact ⟨hs, C42_forces_sum_zero totalEnergy cn_invariant eeq_invariant hd,
    C42_torque_zero totalEnergy cn_invariant eeq_invariant hd,
    C42_padding_force_zero totalEnergy cn_ignores eeq_ignores rfl⟩

end Demo

end TadDftd4
