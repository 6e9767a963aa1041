import Verif.Model.AutogradDisp
import Verif.Lemmas.AutogradEnergy
import Verif.Lemmas.AutogradNaN
import Verif.Lemmas.AutogradPair
import Verif.Lemmas.AutogradParam
import Verif.Lemmas.TermSmooth

/-!
# Backward pass through the energy of any dispersion class
-/

set_option linter.unusedSimpArgs false

open scoped Classical Topology

namespace TadDftd4

open Tensor

namespace Tape

/-- A power of a quantity that is positive, or zero everywhere. -/
theorem Fine.tpow_zero {a b : Tape} {f h : ℝ → ℝ} {x : ℝ} (ha : Fine a f x) (hb : Fine b h x)
    (h0 : 0 < f x ∨ ((∀ y, f y = 0) ∧ 1 ≤ h x)) : Fine (Tape.tpow a b) (fun y => f y ^ h y) x := by
  rcases h0 with h0 | ⟨hz, hp⟩
  · exact ha.tpow hb h0
  · have hz' : f = fun _ => 0 := funext hz
    subst hz'
    have hae := ha.eval
    have hbe := hb.eval
    have hback := fun g => ha.back g
    have hback' := fun g => hb.back g
    have hp0 : h x ≠ 0 := by linarith
    have hpp : 0 ≤ h x := by linarith
    have hnear : ∀ᶠ y in 𝓝 x, 0 < h y :=
      hb.continuousAt.eventually (lt_mem_nhds (by linarith : (0 : ℝ) < h x))
    refine ⟨?_, 0, ?_, fun g => ?_⟩
    · filter_upwards [ha.1, hb.1, hnear] with y hy hy' hn
      simp [Tape.eval, hy, hy', FP.tpow, FP.pow, hn.le, hn.ne']
    · refine (hasDerivAt_const x (0 : ℝ)).congr_of_eventuallyEq ?_
      filter_upwards [hnear] with y hn
      exact Real.zero_rpow hn.ne'
    · simp only [Tape.back, hae, hbe, FP.powBase, if_neg hp0]
      simp [FP.pow, hp, FP.mul, FP.powExponent, FP.ne0, FP.ge, hpp, hback, hback', FP.add]

variable {G : GradCfg} {n : ℕ} {X : GradSys n} {x : ℝ} {ch : Bool}

/-! ## Weights, C6 coefficients and polarizabilities -/

/-- Charges used by a term. -/
noncomputable def qV (X : GradSys n) (ch : Bool) (i : Fin n) (y : ℝ) : ℝ := if ch then X.qFn i y else 0

/-- Data of an atom used by a term. -/
noncomputable def dat (X : GradSys n) (ch : Bool) (i : Fin n) (y : ℝ) : Spec.AtomData :=
  ⟨X.Z i, X.cnFn i y, qV X ch i y⟩

/-- Conditions on what the coefficients depend on. -/
structure CoefOk (G : GradCfg) (X : GradSys n) (x : ℝ) (ch : Bool) : Prop where
  fl : G.env.fl = id
  cn : ∀ i, DifferentiableAt ℝ (X.cnFn i) x
  cnConst : X.cnGrad = false → ∀ i, ∃ c, X.cnFn i = fun _ => c
  q : ch = true → ∀ i, DifferentiableAt ℝ (X.qFn i) x
  qConst : ∀ i, X.qGrad i = false → ∃ c, X.qFn i = fun _ => c
  refc : ∀ r < nref, G.T.refc 0 r = 0
  scale : ∀ i, ScaleOk G (X.Z i)
  real : ∀ i, X.Z i ≠ 0 → G.env.eps < qV X ch i x + G.T.zeff (X.Z i)
  pad : ∀ i, X.Z i = 0 → qV X ch i x + G.T.zeff 0 ≠ G.env.eps

namespace CoefOk
variable (h : CoefOk G X x ch)
include h

theorem qIn (i : Fin n) : Fine (qIn X ch i) (qV X ch i) x := by
  unfold Tape.qIn qV
  cases ch with
  | true => exact Fine.input (h.q rfl i) (h.qConst i)
  | false => exact Fine.const

theorem charge (i : Fin n) : ChargeOk G (X.Z i) (qV X ch i x) :=
  (h.scale i).charge (h.real i) fun h0 => by rw [h0]; exact h.pad i h0

theorem isReal {i : Fin n} (hr : ∃ r < nref, 0 < G.T.refc (X.Z i) r) : X.Z i ≠ 0 := by
  intro hz
  obtain ⟨r, h1, h2⟩ := hr
  rw [hz, h.refc r h1] at h2
  exact lt_irrefl _ h2

theorem C (i j : Fin n) : Fine (c6 G X (rc G) (Tape.qIn X ch) i j)
    (fun y => c6At G.env G.T G.R (dat X ch i y) (dat X ch j y)) x :=
  Fine.c6 (d := qV X ch) rfl h.fl h.cn h.cnConst h.scale h.refc h.qIn h.charge
    fun i hr => h.real i (h.isReal hr)

theorem pol (i : Fin n) (w : ℕ) : Fine (pol G X (alphaAt G.env G.T G.ga G.gc G.rq) ch i w)
    (fun y => polAt G.env G.T G.R (dat X ch i y) w) x := by
  unfold Tape.pol polAt polOf
  refine (Fine.sum fun r : Fin nref => (Fine.weight (Zp := 0) h.fl
    (Fine.input (h.cn i) fun h0 => h.cnConst h0 i) (h.qIn i) r.2 (h.charge i) (h.scale i)
    (fun hr => h.isReal ⟨r, r.2, hr⟩) fun hr => h.real i (h.isReal ⟨r, r.2, hr⟩)).mul
    (Fine.const (c := alphaAt G.env G.T G.ga G.gc G.rq (X.Z i) r w))).congr' fun y => ?_
  rw [Finset.sum_range]
  rfl

theorem c9Exact (i j k : Fin n) : Fine (c9Exact G X (alphaAt G.env G.T G.ga G.gc G.rq) ch i j k)
    (fun y => c9At G.env G.T G.R (dat X ch i y) (dat X ch j y) (dat X ch k y)) x := by
  unfold Tape.c9Exact c9At
  refine (Fine.const.mul (Fine.sum fun w : Fin nfreq => ((((h.pol i w).mul (h.pol j w)).mul
    (h.pol k w)).mul (Fine.const (c := trapzWeights.getD w 0))))).congr' fun y => ?_
  rw [Finset.sum_range]

/-- Approximate C9 coefficient. -/
noncomputable def _root_.TadDftd4.Tape.c9aV (G : GradCfg) (X : GradSys n) (ch : Bool) (i j k : Fin n)
    (y : ℝ) : ℝ :=
  G.env.ssqrt |c6At G.env G.T G.R (dat X ch i y) (dat X ch j y) *
    c6At G.env G.T G.R (dat X ch i y) (dat X ch k y) * c6At G.env G.T G.R (dat X ch j y) (dat X ch k y)|

theorem c9Approx {i j k : Fin n}
    (hne : |c6At G.env G.T G.R (dat X ch i x) (dat X ch j x) *
      c6At G.env G.T G.R (dat X ch i x) (dat X ch k x) *
      c6At G.env G.T G.R (dat X ch j x) (dat X ch k x)| ≠ G.env.eps) :
    Fine (c9Approx G X (rc G) ch i j k) (c9aV G X ch i j k) x := by
  have hp := ((h.C i j).mul (h.C i k)).mul (h.C j k)
  rcases lt_or_gt_of_ne hne with hl | hl
  · exact Fine.ssqrt_lt (f := fun y => |c6At G.env G.T G.R (dat X ch i y) (dat X ch j y) *
      c6At G.env G.T G.R (dat X ch i y) (dat X ch k y) *
      c6At G.env G.T G.R (dat X ch j y) (dat X ch k y)|) hp.tame.abs (hp.1.mono fun y hy => eval_abs hy)
      hp.continuousAt.abs hl
  · refine Fine.ssqrt (hp.abs ?_) hl
    intro h0
    rw [h0, abs_zero] at hl
    exact lt_asymm hl G.env.eps_pos

theorem c9Approx_tame (i j k : Fin n) : Tame (Tape.c9Approx G X (rc G) ch i j k) x (c9aV G X ch i j k x) :=
  Tame.ssqrt (((h.C i j).mul (h.C i k)).mul (h.C j k)).tame.abs

theorem c9Approx_eval (i j k : Fin n) :
    ∀ᶠ y in 𝓝 x, ∃ d, (Tape.c9Approx G X (rc G) ch i j k).eval y = .fin d := by
  filter_upwards [(((h.C i j).mul (h.C i k)).mul (h.C j k)).1] with y hy
  exact ⟨_, eval_ssqrt (eval_abs hy)⟩

end CoefOk

/-! ## Three-body terms -/

section atm
variable {rad : Fin n → Fin n → Tape} {s9 alp : Tape} {ρ : Fin n → Fin n → ℝ → ℝ} {σ α : ℝ → ℝ}

/-- The radii of the pairs in `P` are positive, or zero if the exponent is not small. -/
def RadOk (P : Fin n → Fin n → Prop) (ρ : Fin n → Fin n → ℝ → ℝ) (α : ℝ → ℝ) (x : ℝ) : Prop :=
  ∀ i j, P i j → 0 < ρ i j x ∨ ((∀ y, ρ i j y = 0) ∧ 3 ≤ α x)

noncomputable def fOfV (G : GradCfg) (X : GradSys n) (ρ : Fin n → Fin n → ℝ → ℝ) (α : ℝ → ℝ)
    (i j k : Fin n) (y : ℝ) : ℝ :=
  1 / (1 + 6 * (1 * (ρ i j y * ρ i k y * ρ j k y / rrV G X i j k y)) ^ (α y / 3))

theorem zero9_fine {P : Fin n → Fin n → Prop} {i j k : Fin n}
    (hr1 : Fine (r1 G X i j k) (fun y => √(r2V G X i j k y)) x)
    (hrad : ∀ i j, Fine (rad i j) (ρ i j) x) (halp : Fine alp α x) (hr : RadOk P ρ α x)
    (hij : P i j) (hik : P i k) (hjk : P j k) :
    Fine (zero9 G X rad alp i j k) (fOfV G X ρ α i j k) x := by
  have hrr : Fine (rr G X i j k) (fun y => rrV G X i j k y) x := Fine.sel_const hr1 Fine.const
  have h3 := ((hrad i j).mul (hrad i k)).mul (hrad j k)
  have ht := (Fine.const (c := 1)).mul (Fine.sdiv (env := G.env) h3 hrr (rrV_pos i j k x).ne')
  have h0 : 0 < ρ i j x * ρ i k x * ρ j k x ∨
      ((∀ y, ρ i j y * ρ i k y * ρ j k y = 0) ∧ 3 ≤ α x) := by
    rcases hr i j hij with h1 | ⟨h1, ha⟩
    · rcases hr i k hik with h2 | ⟨h2, ha⟩
      · rcases hr j k hjk with h3 | ⟨h3, ha⟩
        · exact Or.inl (mul_pos (mul_pos h1 h2) h3)
        · exact Or.inr ⟨fun y => by rw [h3, mul_zero], ha⟩
      · exact Or.inr ⟨fun y => by rw [h2, mul_zero, zero_mul], ha⟩
    · exact Or.inr ⟨fun y => by rw [h1, zero_mul, zero_mul], ha⟩
  have hp := ht.tpow_zero (halp.div (Fine.const (c := 3)) (by norm_num)) (by
    rcases h0 with h0 | ⟨h0, ha⟩
    · left
      rw [one_mul]
      exact div_pos h0 (rrV_pos i j k x)
    · exact Or.inr ⟨fun y => by rw [h0]; simp, by linarith⟩)
  have h0' : 0 ≤ ρ i j x * ρ i k x * ρ j k x := by
    rcases h0 with h0 | ⟨h0, -⟩
    · exact h0.le
    · exact (h0 x).ge
  have hden : 0 < 1 + 6 * (1 * (ρ i j x * ρ i k x * ρ j k x / rrV G X i j k x)) ^ (α x / 3) := by
    have := Real.rpow_nonneg (mul_nonneg zero_le_one (div_nonneg h0' (rrV_pos (G := G) (X := X) i j k x).le))
      (α x / 3)
    positivity
  exact (Fine.const (c := 1)).div ((Fine.const (c := 1)).add ((Fine.const (c := 6)).mul hp)) hden.ne'

/-- Nothing flows back through a masked triple if radii and exponent do not require gradients. -/
theorem zero9_dead {i j k : Fin n} (ht : ¬ tripleOk X i j k) (hr1 : Quiet (r1 G X i j k) x)
    (hrad : ∀ i j, Dead (rad i j) x) (halp : Dead alp x) : Dead (zero9 G X rad alp i j k) x := by
  have hrr : Dead (rr G X i j k) x := fun g => by
    have h0 : Tape.back x (r1 G X i j k) (.fin 0) = .fin 0 := hr1
    simp [rr, Tape.back, ht, h0, FP.add]
  exact Dead.const.div (Dead.const.add (Dead.const.mul (Dead.tpow (Dead.const.mul (Dead.sdiv
    (((hrad i j).mul (hrad i k)).mul (hrad j k)) hrr)) (halp.div Dead.const))))

noncomputable def atmV (G : GradCfg) (X : GradSys n) (ρ : Fin n → Fin n → ℝ → ℝ) (σ α : ℝ → ℝ)
    (c : Fin n → Fin n → Fin n → ℝ → ℝ) (i : Fin n) (y : ℝ) : ℝ :=
  (∑ j, ∑ k, angV G X i j k y * (if tripleOk X i j k then fOfV G X ρ α i j k y else 0) * σ y * c i j k y) / 6

theorem atm_fine (hang : ∀ i j k, Fine (ang G X i j k) (angV G X i j k) x)
    (hz : ∀ i j k, tripleOk X i j k → Fine (zero9 G X rad alp i j k) (fOfV G X ρ α i j k) x)
    (hq : ∀ i j k, ¬ tripleOk X i j k → Quiet (zero9 G X rad alp i j k) x) (hs9 : Fine s9 σ x)
    {c9 : Fin n → Fin n → Fin n → Tape}
    {c : Fin n → Fin n → Fin n → ℝ → ℝ} (h9 : ∀ i j k, tripleOk X i j k → Fine (c9 i j k) (c i j k) x)
    (ht : ∀ i j k, ∃ v, Tame (c9 i j k) x v)
    (he : ∀ i j k, ∀ᶠ y in 𝓝 x, ∃ d, (c9 i j k).eval y = .fin d) (i : Fin n) :
    Fine (atm G X rad s9 alp c9 i) (atmV G X ρ σ α c i) x := by
  refine (Fine.sum fun j => Fine.sum fun k => ?_).div Fine.const (by norm_num)
  by_cases hok : tripleOk X i j k
  · have hf : Fine (fdampOf G X rad alp i j k)
        (fun y => if tripleOk X i j k then fOfV G X ρ α i j k y else 0) x :=
      (Fine.sel_true (P := fun _ => tripleOk X i j k) (hz i j k hok) (Tame.const (c := 0))
        (.of_forall fun _ => hok)).congr' fun y => by rw [if_pos hok]
    exact (((hang i j k).mul hf).mul hs9).mul (h9 i j k hok)
  · have hf : Fine (fdampOf G X rad alp i j k)
        (fun y => if tripleOk X i j k then fOfV G X ρ α i j k y else 0) x :=
      (Fine.sel_quiet (P := fun _ => tripleOk X i j k) (hq i j k hok) (Fine.const (c := 0))
        (.of_forall fun _ => hok)).congr' fun y => by rw [if_neg hok]
    have h1 := ((hang i j k).mul hf).mul hs9
    have h2 := h1.congr_null fun y => by simp [hok]
    obtain ⟨v, hv⟩ := ht i j k
    exact (h2.mul_null hv (he i j k)).congr' fun y => by simp [hok]

/-- The system with van der Waals radii. -/
noncomputable def molV (X : GradSys n) (rvdw : Fin n → Fin n → ℝ) (y : ℝ) : Spec.Mol n :=
  { X.mol y with rvdw := rvdw }

theorem atmV_eq (hcut : 0 ≤ G.cut3) {S : Spec.Settings} {rvdw : Fin n → Fin n → ℝ}
    {C : Fin n → Fin n → Fin n → ℝ} {c : Fin n → Fin n → Fin n → ℝ → ℝ} {Rr : Fin n → Fin n → ℝ}
    (hε : S.ε = G.env.eps) (i : Fin n) (y : ℝ)
    (hs9 : S.s9 = σ y) (h3 : S.cut3 = G.cut3) (hf : S.f9 = zeroF G.env 1 (α y / 3))
    (hC : ∀ i j k, c i j k y = C i j k) (hR : ∀ i j, ρ i j y = Rr i j) :
    atmV G X ρ σ α c i y = Spec.e3 S (molV X rvdw y) C Rr i := by
  unfold atmV Spec.e3
  rw [div_eq_inv_mul, show (6 : ℝ)⁻¹ = 1 / 6 by norm_num]
  congr 1
  refine Finset.sum_congr rfl fun j _ => Finset.sum_congr rfl fun k _ => ?_
  by_cases ht : tripleOk X i j k
  · obtain ⟨hi, hj, hk, hij, hik, hjk⟩ := ht
    have ht : tripleOk X i j k := ⟨hi, hj, hk, hij, hik, hjk⟩
    rw [if_pos ht]
    have d1 : dV G X i j y = (molV X rvdw y).r S.ε i j := by rw [dV, if_pos ⟨hi, hj, hij⟩, hε]; rfl
    have d2 : dV G X i k y = (molV X rvdw y).r S.ε i k := by rw [dV, if_pos ⟨hi, hk, hik⟩, hε]; rfl
    have d3 : dV G X j k y = (molV X rvdw y).r S.ε j k := by rw [dV, if_pos ⟨hj, hk, hjk⟩, hε]; rfl
    have p1 := dV_pos (G := G) (X := X) i j y
    have p2 := dV_pos (G := G) (X := X) i k y
    have p3 := dV_pos (G := G) (X := X) j k y
    have hsq : ∀ d : ℝ, 0 < d → (d ^ 2 ≤ G.cut3 * G.cut3 ↔ d ≤ G.cut3) := by
      intro d hd
      rw [← sq]
      exact pow_le_pow_iff_left₀ hd.le hcut two_ne_zero
    by_cases hc : Spec.withinCut3 S (molV X rvdw y) i j k
    · rw [if_pos ⟨hi, hj, hk, hij, hik, hjk, hc⟩]
      have hA : angC G X i j k y := by
        have h1 := (hsq _ p1).2 (by rw [d1, ← h3]; exact hc.1)
        have h3 := (hsq _ p3).2 (by rw [d3, ← h3]; exact hc.2)
        exact ⟨⟨⟨ht, h1⟩, h3⟩, h3⟩
      have hr : √(r2V G X i j k y) = dV G X i j y * dV G X i k y * dV G X j k y := by
        rw [r2V, ← mul_pow, ← mul_pow, Real.sqrt_sq (by positivity)]
      unfold Spec.tripleTerm
      dsimp only
      rw [← d1, ← d2, ← d3]
      have hp0 : dV G X i j y * dV G X i k y * dV G X j k y ≠ 0 := by positivity
      have hf' : fOfV G X ρ α i j k y = S.f9 (Rr i j * Rr i k * Rr j k)
          (dV G X i j y * dV G X i k y * dV G X j k y) := by
        rw [fOfV, rrV, if_pos ht, hr, hf, zeroF, Env.sdiv, if_neg hp0, hR, hR, hR]
      rw [← hf', hC, hs9]
      rw [angV, if_pos hA, r5V, if_pos ht, r3V, if_pos ht, sV, if_pos ht, hr, r2V]
      unfold Spec.cosSides
      clear hf' hp0 hr hA hC
      generalize dV G X i j y = a at *
      generalize dV G X i k y = b at *
      generalize dV G X j k y = c at *
      field_simp
      ring
    · rw [if_neg fun h => hc h.2.2.2.2.2.2]
      have hA : ¬ angC G X i j k y := by
        intro h
        refine hc ⟨?_, ?_⟩
        · have := (hsq _ p1).1 h.1.1.2
          rw [d1, ← h3] at this
          exact this
        · have := (hsq _ p3).1 h.2
          rw [d3, ← h3] at this
          exact this
      rw [angV, if_neg hA]
      ring
  · rw [if_neg ht, if_neg fun h => ht ⟨h.1, h.2.1, h.2.2.1, h.2.2.2.1, h.2.2.2.2.1, h.2.2.2.2.2.1⟩]
    have hA : ¬ angC G X i j k y := fun h => ht h.1.1.1
    rw [angV, if_neg hA]
    ring

end atm

/-! ## Two-body terms -/

section pair
variable {rvdw : Fin n → Fin n → ℝ} {p : Param} {P : ℝ → Param} {pg : DName → Bool} {d : Damping} {cut : ℝ}
  {C : Fin n → Fin n → Tape} {c : Fin n → Fin n → ℝ → ℝ}

theorem pairOf_sqD (i j : Fin n) (y : ℝ) : Pair.sqD (pairOf X rvdw P pg C) i j y =
    dist ((molV X rvdw y).pos i) ((molV X rvdw y).pos j) ^ 2 := by
  rw [← Pair.sqD_eq]
  exact distSq i j y

theorem pairOf_distV {i j : Fin n} (h : Pair.ok (pairOf X rvdw P pg C) i j) (y : ℝ) :
    Pair.distV G.env (pairOf X rvdw P pg C) i j y = (molV X rvdw y).r G.env.eps i j := by
  rw [Pair.distV, if_pos h, pairOf_sqD]
  rfl

/-- What the damping function needs, from the conditions for the energy to be smooth. -/
theorem dampAt_of_smooth {k : ℕ} {R R' : ℝ} {f : ℝ → ℝ → ℝ} (hk : k = 6 ∨ k = 8)
    (hf : d.point G.env k false p.kw = .ok f) (hz : Pair.zeroed p.isNone k = false)
    (hs : d.SmoothFor p R) (hR : d.radiusType = .rvdw → R' = R)
    (hop : d = .op → ∀ a1 a2, p.a1 = .val a1 → p.a2 = .val a2 → 0 < a1 * √R' + a2) : Pair.DampAt d k p.read R' := by
  have hg := (Damping.given_of_point (by tauto) hf).resolve_left (by rw [hz]; simp)
  have hv : ∀ {v : PVal} {y : ℝ}, v.kw none = some y → v = .val y := PVal.kw_none
  cases d with
  | rational => trivial
  | op =>
    obtain ⟨-, e1, e2, -⟩ := hg
    obtain ⟨a1, e1⟩ : ∃ a, p.kw.a1 = some a := Option.isNone_false e1
    obtain ⟨a2, e2⟩ : ∃ a, p.kw.a2 = some a := Option.isNone_false e2
    have := hop rfl a1 a2 (hv e1) (hv e2)
    simpa [Pair.DampAt, Param.read, Param.arg, e1, e2] using this
  | zero =>
    obtain ⟨s6, s8, h0⟩ := hs
    obtain ⟨-, -, e2⟩ := hg
    refine ⟨?_, by rw [hR rfl]; exact h0⟩
    rcases hk with rfl | rfl
    · obtain ⟨a, e⟩ : ∃ a, p.kw.rs6 = some a := Option.isNone_false e2
      simp only [if_true, Param.read, Param.arg, e, Option.getD_some]
      exact s6 _ (hv e)
    · obtain ⟨a, e⟩ : ∃ a, p.kw.rs8 = some a := Option.isNone_false e2
      simp only [show ¬ (8 : ℕ) = 6 by decide, if_false, Param.read, Param.arg, e, Option.getD_some]
      exact s8 _ (hv e)
  | mzero =>
    obtain ⟨s6, s8, hb, h0⟩ := hs
    obtain ⟨-, -, e2, e3⟩ := hg
    refine ⟨?_, ?_, by rw [hR rfl]; exact h0⟩
    · rcases hk with rfl | rfl
      · obtain ⟨a, e⟩ : ∃ a, p.kw.rs6 = some a := Option.isNone_false e2
        simp only [if_true, Param.read, Param.arg, e, Option.getD_some]
        exact s6 _ (hv e)
      · obtain ⟨a, e⟩ : ∃ a, p.kw.rs8 = some a := Option.isNone_false e2
        simp only [show ¬ (8 : ℕ) = 6 by decide, if_false, Param.read, Param.arg, e, Option.getD_some]
        exact s8 _ (hv e)
    · obtain ⟨a, e⟩ : ∃ a, p.kw.bet = some a := Option.isNone_false e3
      simp only [Param.read, Param.arg, e, Option.getD_some]
      exact hb _ (hv e)

theorem pairOf_ok (hp : PosOk G X x) (hfl : G.env.fl = id) (hu : d.Usable G.env p)
    (hC : ∀ i j, Fine (C i j) (c i j) x) (hcut : ∀ i j, pairOk X i j → dV G X i j x ≠ cut)
    (hs : ∀ i j, pairOk X i j → d.SmoothFor p (rvdw i j))
    (hop : d = .op → ∀ a1 a2, p.a1 = .val a1 → p.a2 = .val a2 → ∀ i j, pairOk X i j →
      0 < a1 * √(3 * X.Q i * X.Q j) + a2) :
    Pair.Ok G.env (pairOf X rvdw (fun _ => p) (fun _ => false) C) c d cut 0 x := by
  have hdist : ∀ i j, Pair.ok (pairOf X rvdw (fun _ => p) (fun _ => false) C) i j →
      Fine (Pair.distance G.env (pairOf X rvdw (fun _ => p) (fun _ => false) C) i j) (Pair.distV G.env (pairOf X rvdw (fun _ => p) (fun _ => false) C) i j) x := by
    intro i j h
    refine (Fine.sel_true (P := fun _ => Pair.ok (pairOf X rvdw (fun _ => p) (fun _ => false) C) i j)
      (Pair.fine_cdist (fun k => ?_) (fun k => ?_) ?_)
      (Tame.const (c := G.env.eps)) (.of_forall fun _ => h)).congr' fun y => ?_
    · exact Fine.input (hp.diff i k h.1) fun h0 => hp.const h0 i k
    · exact Fine.input (hp.diff j k h.2.1) fun h0 => hp.const h0 j k
    · rw [pairOf_sqD]
      exact hp.apart i j h.1 h.2.1 h.2.2
    · rw [Pair.distV, if_pos h]
  exact
  { par := fun m => Fine.input (differentiableAt_const _) fun _ => ⟨p.read m, rfl⟩
    c6 := hC
    dist := hdist
    damp := fun i j h k hk hz => by
      obtain ⟨f, hf⟩ : ∃ f, d.point G.env k false p.kw = .ok f := by
        rcases hk with rfl | rfl
        · exact hu.f6
        · exact hu.f8
      refine dampAt_of_smooth (R := rvdw i j) hk hf hz (hs i j h) (fun hr => ?_) fun ho a1 a2 h1 h2 => ?_
      · unfold Pair.radius
        rw [hr]
        rfl
      · subst ho
        exact hop rfl a1 a2 h1 h2 i j h
    cut := fun i j h => by
      have hc := (hdist i j h).continuousAt
      have hne := hcut i j h
      rw [show dV G X i j x = Pair.distV G.env (pairOf X rvdw (fun _ => p) (fun _ => false) C) i j x by
        rw [pairOf_distV h, dV, if_pos (show pairOk X i j from h)]; rfl] at hne
      rcases lt_or_gt_of_ne hne with hl | hl
      · exact Or.inl ((hc.eventually_lt continuousAt_const hl).mono fun _ h => h.le)
      · exact Or.inr ((continuousAt_const.eventually_lt hc hl).mono fun _ h => not_le.2 h)
    fl := fun z _ => by rw [hfl]; rfl
    large := fun _ i j h k _ => pow_pos (Pair.distV_pos i j x) k
    ten := fun h => hu.ten h
    quiet := fun i j h k _ => (Pair.dead_call (Pair.dead_distance h) fun m => Dead.frozen).quiet }

theorem PVal.Is.unique {v : PVal} {a x y : ℝ} (hx : v.Is a x) (hy : v.Is a y) : x = y := by
  unfold PVal.Is at hx hy
  rcases hx with hx | ⟨hx, rfl⟩ <;> rcases hy with hy | ⟨hy, rfl⟩
  · rw [hx] at hy; exact PVal.val.inj hy
  · rw [hx] at hy; cases hy
  · rw [hx] at hy; cases hy
  · rfl

theorem pairOf_energy {S : Spec.Settings} (hε : S.ε = G.env.eps) (y : ℝ)
    (hS : TwoBodyPar G.env (P y) d S) (hu : d.Usable G.env (P y)) (hN : (P 0).isNone = (P y).isNone)
    (hcut : S.cut2 = cut) {A : Fin n → Spec.AtomData} (i : Fin n)
    (hA : ∀ i j, c i j y = S.c6 (A i) (A j)) :
    Pair.enV G.env (pairOf X rvdw P pg C) c d cut i y = Spec.e2 S (molV X rvdw y) A i := by
  have e6 := Damping.point_eq (by simp) hS.f6
  have e8 := Damping.point_eq (by simp) hS.f8
  have h6 : S.s6 = (P y).read .s6 := PVal.Is.unique hS.s6 hu.s6_is
  have h8 : S.s8 = (P y).read .s8 := PVal.Is.unique hS.s8 hu.s8_is
  have h10 : S.s10 = (if (P y).isNone .s10 then 0 else (P y).read .s10) ∧
      ((P y).isNone .s10 = false → S.f10 = Pair.callV G.env (P y).isNone d 10 (P y).read) := by
    rcases hS.s10 with ⟨h1, h2⟩ | ⟨h1, h2⟩
    · have : (P y).isNone .s10 = true := by simp [Param.isNone, Param.arg, Param.kw, h1, PVal.kw]
      simp [this, h2]
    · have : (P y).isNone .s10 = false := by simp [Param.isNone, Param.arg, Param.kw, h1, PVal.kw]
      refine ⟨?_, fun _ => Damping.point_eq (by simp) h2⟩
      simp [this, Param.read, Param.arg, Param.kw, h1, PVal.kw]
  have hen : Pair.enV G.env (pairOf X rvdw P pg C) c d cut i y = -(1 / 2) * ∑ j,
      (S.s6 * (c i j y * Pair.tV G.env (pairOf X rvdw P pg C) d cut 6 i j y) +
      S.s8 * (c i j y * (3 * X.Q i * X.Q j) * Pair.tV G.env (pairOf X rvdw P pg C) d cut 8 i j y) +
      S.s10 * (c i j y * (3 * X.Q i * X.Q j) ^ 2 * 49 / 40 *
        Pair.tV G.env (pairOf X rvdw P pg C) d cut 10 i j y)) := by
    rw [Finset.sum_add_distrib, Finset.sum_add_distrib, ← Finset.mul_sum, ← Finset.mul_sum, ← Finset.mul_sum,
      h6, h8, h10.1]
    unfold Pair.enV
    by_cases hn : (P y).isNone .s10 = true
    · simp only [pairOf, hN, hn, if_true, zero_mul, add_zero]
      norm_num
    · simp only [pairOf, hN, hn]
      norm_num
  rw [hen]
  unfold Spec.e2
  congr 1
  refine Finset.sum_congr rfl fun j _ => ?_
  unfold Pair.tV
  by_cases hm : Pair.ok (pairOf X rvdw P pg C) i j
  · have hd := pairOf_distV (G := G) hm y
    have hrad : Pair.radius (pairOf X rvdw P pg C) d i j = Spec.rad S (molV X rvdw y) i j := by
      unfold Pair.radius Spec.rad
      rw [hS.radius]
      cases d <;> rfl
    rw [hd, hrad]
    by_cases hc : (molV X rvdw y).r G.env.eps i j ≤ cut
    · rw [if_pos ⟨hm, hc⟩, if_pos ⟨hm, hc⟩, if_pos ⟨hm, hc⟩,
        if_pos ⟨hm.1, hm.2.1, hm.2.2, by rw [hε, hcut]; exact hc⟩]
      unfold Spec.pairTerm
      dsimp only
      rw [hε, e6, e8, ← hA]
      have hpv : Pair.parV (pairOf X rvdw P pg C) y = (P y).read := rfl
      have hin : (pairOf X rvdw P pg C).isNone = (P y).isNone := hN
      rw [hpv, hin]
      by_cases hn : (P y).isNone .s10 = true
      · rw [h10.1, if_pos hn, zero_mul, zero_mul]
        rfl
      · rw [h10.2 (by simpa using hn)]
        rfl
    · rw [if_neg fun h => hc h.2, if_neg fun h => hc h.2, if_neg fun h => hc h.2,
        if_neg fun h => hc (by rw [← hε, ← hcut]; exact h.2.2.2)]
      ring
  · rw [if_neg fun h => hm h.1, if_neg fun h => hm h.1, if_neg fun h => hm h.1,
      if_neg fun h => hm ⟨h.1, h.2.1, h.2.2.1⟩]
    ring

end pair

/-! ## Terms -/

section
variable {rvdw : Fin n → Fin n → ℝ} {p : Param} {cutoff : Cutoff} {t : Term} {S : Spec.Settings}

/-- Critical radii of the three-body terms. -/
noncomputable def radBJV (G : GradCfg) (X : GradSys n) (P : ℝ → Param) (i j : Fin n) (y : ℝ) : ℝ :=
  (P y).read3 .a1 * G.env.ssqrt (3 * X.Q i * X.Q j) + (P y).read3 .a2
noncomputable def radVdWV (rvdw : Fin n → Fin n → ℝ) (P : ℝ → Param) (i j : Fin n) (y : ℝ) : ℝ :=
  (P y).read3 .rs9 * rvdw i j

/-- Conditions for the gradient of the energy of a term to be the derivative. -/
structure TermOk (G : GradCfg) (X : GradSys n) (rvdw : Fin n → Fin n → ℝ) (p : Param) (cutoff : Cutoff)
    (x : ℝ) (t : Term) : Prop where
  pos : PosOk G X x
  coef : CoefOk G X x t.chargeDep
  cut2 : t.cls = .twoBody → ∀ i j, pairOk X i j → dV G X i j x ≠ cutoff.disp2
  cut3 : t.cls ≠ .twoBody → ∀ i j, pairOk X i j → dV G X i j x ≠ cutoff.disp3
  c9 : t.cls = .d4ATMApprox ∨ t.cls = .d3ATM → ∀ i j k, tripleOk X i j k →
    |c6At G.env G.T G.R (dat X t.chargeDep i x) (dat X t.chargeDep j x) *
      c6At G.env G.T G.R (dat X t.chargeDep i x) (dat X t.chargeDep k x) *
      c6At G.env G.T G.R (dat X t.chargeDep j x) (dat X t.chargeDep k x)| ≠ G.env.eps
  damping : t.cls = .twoBody → ∀ i j, pairOk X i j → t.damping.SmoothFor p (rvdw i j)
  op : t.cls = .twoBody → t.damping = .op → ∀ a1 a2, p.a1 = .val a1 → p.a2 = .val a2 → ∀ i j, pairOk X i j →
    0 < a1 * √(3 * X.Q i * X.Q j) + a2
  bj : t.cls = .d4ATMApprox ∨ t.cls = .d4ATMExact →
    RadOk (pairOk X) (radBJV G X fun _ => p) (fun _ => p.read3 .alp) x
  vdw : t.cls = .d3ATM → RadOk (pairOk X) (radVdWV rvdw fun _ => p) (fun _ => p.read3 .alp) x

theorem PVal.Is.num {v : PVal} {a x : ℝ} (h : v.Is a x) : (v.num a).getD 0 = x := by
  unfold PVal.Is at h
  rcases h with h | ⟨h, rfl⟩ <;> rw [h] <;> rfl

theorem dat_eq (ch : Bool) (i : Fin n) (y : ℝ) : dat X ch i y = (molV X rvdw y).data ch i := by
  unfold dat qV Spec.Mol.data
  cases ch <;> rfl

/-- A three-body term. -/
theorem atm_term {P : ℝ → Param} {pg : DName → Bool} {S : ℝ → Spec.Settings} {rad : Fin n → Fin n → Tape}
    {ρ : Fin n → Fin n → ℝ → ℝ} {Rr : ℝ → Fin n → Fin n → ℝ} (hc : t.cls ≠ .twoBody)
    (hz : t.damping = .zero) (hG : G.cut3 = cutoff.disp3)
    (hS : ∀ y, TermPar G.env G.T G.R (P y) cutoff t (S y))
    (hang : ∀ i j k, Fine (ang G X i j k) (angV G X i j k) x)
    (h0 : ∀ i j k, tripleOk X i j k → Fine (zero9 G X rad (entry P pg .alp) i j k)
      (fOfV G X ρ (fun y => (P y).read3 .alp) i j k) x)
    (hq : ∀ i j k, ¬ tripleOk X i j k → Quiet (zero9 G X rad (entry P pg .alp) i j k) x)
    (hs9 : Fine (entry P pg .s9) (fun y => (P y).read3 .s9) x)
    {c9 : Fin n → Fin n → Fin n → Tape} {c : Fin n → Fin n → Fin n → ℝ → ℝ}
    (h9 : ∀ i j k, tripleOk X i j k → Fine (c9 i j k) (c i j k) x)
    (ht : ∀ i j k, ∃ v, Tame (c9 i j k) x v)
    (he : ∀ i j k, ∀ᶠ y in 𝓝 x, ∃ d, (c9 i j k).eval y = .fin d)
    (hR : ∀ i j y, ρ i j y = Rr y i j) (i : Fin n) :
    Fine (atm G X rad (entry P pg .s9) (entry P pg .alp) c9 i)
      (fun y => Spec.e3 (S y) (molV X rvdw y) (fun i j k => c i j k y) (Rr y) i) x := by
  refine (atm_fine hang h0 hq hs9 h9 ht he i).congr' fun y => ?_
  obtain ⟨⟨hs9, alp, ha, h9⟩, h10, h11⟩ := (hS y).three hc
  rw [hz, point9_zero] at h9
  have hcut : 0 ≤ G.cut3 := by rw [hG, ← h10]; exact h11
  exact atmV_eq hcut (hS y).ε i y (PVal.Is.num hs9).symm (h10.trans hG.symm)
    (by rw [show (P y).read3 .alp = alp from PVal.Is.num ha]; exact (Except.ok.inj h9).symm)
    (fun _ _ _ => rfl) fun i j => hR i j y

theorem radBJV_eq {P : ℝ → Param} {S : ℝ → Spec.Settings}
    (hS : ∀ y, TermPar G.env G.T G.R (P y) cutoff t (S y))
    (hc : t.cls = .d4ATMApprox ∨ t.cls = .d4ATMExact) (i j : Fin n) (y : ℝ) :
    radBJV G X P i j y = Spec.R0 (S y) (molV X rvdw y) i j := by
  unfold radBJV Spec.R0
  rw [show (P y).read3 .a1 = (S y).a1 from PVal.Is.num ((hS y).bj hc).1,
    show (P y).read3 .a2 = (S y).a2 from PVal.Is.num ((hS y).bj hc).2, (hS y).ε]
  rfl

theorem radVdWV_eq {P : ℝ → Param} {S : ℝ → Spec.Settings}
    (hS : ∀ y, TermPar G.env G.T G.R (P y) cutoff t (S y)) (hc : t.cls = .d3ATM) (i j : Fin n) (y : ℝ) :
    radVdWV rvdw P i j y = Spec.R0vdw (S y) (molV X rvdw y) i j := by
  unfold radVdWV Spec.R0vdw
  rw [show (P y).read3 .rs9 = (S y).rs9 from PVal.Is.num ((hS y).vdw hc)]
  rfl

theorem c9aV_eq (hS : TermPar G.env G.T G.R p cutoff t S) (y : ℝ) :
    (fun i j k => c9aV G X t.chargeDep i j k y) = Spec.c9 S ((molV X rvdw y).data t.chargeDep) := by
  funext i j k
  unfold c9aV Spec.c9
  rw [hS.c6, hS.ε, dat_eq (rvdw := rvdw), dat_eq (rvdw := rvdw), dat_eq (rvdw := rvdw)]
  rfl

theorem entry_const (m : DName) : Fine (entry (fun _ => p) (fun _ => false) m) (fun _ => p.read3 m) x :=
  Fine.input (differentiableAt_const _) fun _ => ⟨_, rfl⟩

/-- The backward pass through a term. -/
theorem term_fine (h : TermOk G X rvdw p cutoff x t) (hG : G.cut3 = cutoff.disp3)
    (hS : TermPar G.env G.T G.R p cutoff t S) (hu : t.Usable G.env G.R p cutoff) (i : Fin n) :
    Fine (term G X rvdw (fun _ => p) (fun _ => false) (rc G) (alphaAt G.env G.T G.ga G.gc G.rq) cutoff t i)
      (fun y => t.energy S (molV X rvdw y) i) x := by
  have three : t.cls ≠ .twoBody → ∀ (rad : Fin n → Fin n → Tape) (ρ : Fin n → Fin n → ℝ → ℝ)
      (Rr : ℝ → Fin n → Fin n → ℝ),
      (∀ i j, Fine (rad i j) (ρ i j) x) → (∀ i j, Dead (rad i j) x) →
      RadOk (pairOk X) ρ (fun _ => p.read3 .alp) x → (∀ i j y, ρ i j y = Rr y i j) →
      ∀ (c9 : Fin n → Fin n → Fin n → Tape)
      (c : Fin n → Fin n → Fin n → ℝ → ℝ), (∀ i j k, tripleOk X i j k → Fine (c9 i j k) (c i j k) x) →
      (∀ i j k, ∃ v, Tame (c9 i j k) x v) → (∀ i j k, ∀ᶠ y in 𝓝 x, ∃ d, (c9 i j k).eval y = .fin d) →
      Fine (atm G X rad (entry (fun _ => p) (fun _ => false) .s9) (entry (fun _ => p) (fun _ => false) .alp) c9 i)
        (fun y => Spec.e3 S (molV X rvdw y) (fun i j k => c i j k y) (Rr y) i) x := by
    intro hc rad ρ Rr hf hd hr hR c9 c h1 h2 h3
    have hcut : 0 ≤ G.cut3 := by rw [hG]; exact hu.cut3 hc
    refine atm_term (P := fun _ => p) (S := fun _ => S) hc (hu.zero hc) hG (fun _ => hS)
      (h.pos.ang hcut (by rw [hG]; exact h.cut3 hc)) (fun i j k ht => ?_) (fun i j k ht => ?_)
      (entry_const .s9) h1 h2 h3 hR i
    · obtain ⟨hi, hj, hk, hij, hik, hjk⟩ := ht
      exact zero9_fine (h.pos.r1 i j k) hf (entry_const .alp) hr ⟨hi, hj, hij⟩ ⟨hi, hk, hik⟩ ⟨hj, hk, hjk⟩
    · exact (zero9_dead ht (h.pos.r1 i j k).tame.quiet hd Dead.frozen).quiet
  have fbj : ∀ i j, Fine (radBJ G X (fun _ => p) (fun _ => false) i j) (radBJV G X (fun _ => p) i j) x :=
    fun i j => ((entry_const .a1).mul Fine.const).add (entry_const .a2)
  have dbj : ∀ i j, Dead (radBJ G X (fun _ => p) (fun _ => false) i j) x :=
    fun i j => (Dead.frozen.mul Dead.const).add Dead.frozen
  have hbj := fun hc => radBJV_eq (rvdw := rvdw) (X := X) (P := fun _ => p) (S := fun _ => S) (fun _ => hS) hc
  have hc9 := c9aV_eq (rvdw := rvdw) (X := X) hS
  unfold term termOf Term.energy
  cases hc : t.cls with
  | twoBody =>
    obtain ⟨h2, hcut⟩ := hS.two hc
    refine (Pair.fine_energy (pairOf_ok h.pos h.coef.fl (hu.two hc) h.coef.C (h.cut2 hc)
      (h.damping hc) (h.op hc)) i).congr' fun y => ?_
    refine pairOf_energy hS.ε y h2 (hu.two hc) rfl hcut i fun i j => ?_
    rw [hS.c6, dat_eq (rvdw := rvdw), dat_eq (rvdw := rvdw)]
  | d4ATMApprox =>
    refine (three (by rw [hc]; simp) _ _ _ fbj dbj (h.bj (Or.inl hc)) (hbj (Or.inl hc))
      (c9Approx G X (rc G) t.chargeDep)
      (c9aV G X t.chargeDep) (fun i j k hk => h.coef.c9Approx (h.c9 (Or.inl hc) i j k hk))
      (fun i j k => ⟨_, h.coef.c9Approx_tame i j k⟩) h.coef.c9Approx_eval).congr' fun y => ?_
    rw [hc9 y]
  | d4ATMExact =>
    have hx := fun i j k => h.coef.c9Exact i j k
    refine (three (by rw [hc]; simp) _ _ _ fbj dbj (h.bj (Or.inr hc)) (hbj (Or.inr hc)) _ _
      (fun i j k _ => hx i j k)
      (fun i j k => ⟨_, (hx i j k).tame⟩) fun i j k => ?_).congr' fun y => ?_
    · filter_upwards [(hx i j k).1] with y hy
      exact ⟨_, hy⟩
    · rw [(hS.exact hc).2]
      simp only [dat_eq (rvdw := rvdw)]
  | d3ATM =>
    refine (three (by rw [hc]; simp) _ _ _
      (fun i j => (entry_const .rs9).mul (Fine.const (c := rvdw i j)))
      (fun i j => Dead.frozen.mul Dead.const) (h.vdw hc)
      (radVdWV_eq (X := X) (P := fun _ => p) (S := fun _ => S) (fun _ => hS) hc)
      (c9Approx G X (rc G) t.chargeDep)
      (c9aV G X t.chargeDep) (fun i j k hk => h.coef.c9Approx (h.c9 (Or.inr hc) i j k hk))
      (fun i j k => ⟨_, h.coef.c9Approx_tame i j k⟩) h.coef.c9Approx_eval).congr' fun y => ?_
    rw [hc9 y]

theorem total_fine {ts : List Term} {e : Term → Tape} {f : Term → ℝ → ℝ}
    (h : ∀ t ∈ ts, Fine (e t) (f t) x) : Fine (total ts e) (fun y => (ts.map fun t => f t y).sum) x := by
  unfold total
  have key : ∀ (l : List Term) (s : Tape) (g : ℝ → ℝ), (∀ t ∈ l, t ∈ ts) → Fine s g x →
      Fine (l.foldl (fun s t => add s (e t)) s) (fun y => g y + (l.map fun t => f t y).sum) x := by
    intro l
    induction l with
    | nil => intro s g _ he; simpa using he
    | cons t l ih =>
      intro s g hl he
      have := ih _ _ (fun t ht => hl t (by simp [ht])) (he.add (h t (hl t (by simp))))
      simpa [add_assoc] using this
  have := key ts (const 0) (fun _ => 0) (fun _ h => h) Fine.const
  simpa using this

/-- The backward pass through the sum over the terms. -/
theorem terms_fine {ts : List Term} {S : Term → Spec.Settings}
    (h : ∀ t ∈ ts, TermOk G X rvdw p cutoff x t) (hG : G.cut3 = cutoff.disp3)
    (hS : ∀ t ∈ ts, TermPar G.env G.T G.R p cutoff t (S t))
    (hu : ∀ t ∈ ts, t.Usable G.env G.R p cutoff) (i : Fin n) :
    Fine (terms G X (rc G) (alphaAt G.env G.T G.ga G.gc G.rq) rvdw p cutoff ts i)
      (fun y => (ts.map fun t => t.energy (S t) (molV X rvdw y) i).sum) x :=
  total_fine fun t ht => term_fine (h t ht) hG (hS t ht) (hu t ht) i

end

/-! ## NaN -/

section
variable {rc : ℕ → ℕ → ℕ → ℕ → ℝ} {al : ℕ → ℕ → ℕ → ℝ} {rvdw : Fin n → Fin n → ℝ} {P : ℝ → Param}
  {pg : DName → Bool} {p : Param} {cutoff : Cutoff} {t : Term}

theorem Bad.abs {a : Tape} (h : Bad a x) : Bad (Tape.abs a) x := fun g => by
  simp [Tape.back, h _]

theorem Bad.ssqrt {env : Env} {a : Tape} (h : Bad a x) : Bad (Tape.ssqrt env a) x := fun g => by
  simp [Tape.ssqrt, Tape.back, h _]

theorem Bad.div_left {a b : Tape} (h : Bad a x) : Bad (Tape.div a b) x := fun g => by
  simp [Tape.back, h _]

theorem Lost.C {i : Fin n} (h : Lost G X x i) (hg : X.cnGrad = true) (q : Fin n → Tape) :
    Bad (Tape.c6 G X rc q i i) x := by
  obtain ⟨r, hr, hm⟩ := h.refs
  have hc : Tame (X.cn i) x (X.cnFn i x) := Tame.input
  have hw : Bad (weight G (G.wf (X.Z i) (X.Z i)) (X.Z i) r (X.cn i) (q i)) x :=
    (gw_bad hc hr (fun hk => Or.inl (h.wf hk)) hm h.norm
      (fun hk => by have := h.wf hk; linarith) (by simp [GradSys.cn, input, hg, back])).mul_right
  exact Bad.sum ⟨r, hr⟩ (Bad.sum ⟨r, hr⟩ hw.mul_left.mul_right)

theorem Lost.term {i : Fin n} (h : Lost G X x i) (hg : X.cnGrad = true) (ht : t.cls ≠ .d4ATMExact) :
    Bad (Tape.term G X rvdw P pg rc al cutoff t i) x := by
  have hatm : ∀ rad s9 alp, Bad (atm G X rad s9 alp (c9Approx G X rc t.chargeDep) i) x := fun rad s9 alp =>
    (Bad.sum i (Bad.sum i (Bad.ssqrt (Bad.abs (h.C hg _).mul_right)).mul_right)).div_left
  unfold Tape.term Tape.termOf
  cases hc : t.cls with
  | twoBody =>
    have h6 : Bad (Tape.sum n fun j => Tape.mul
        (Pair.c6 (pairOf X rvdw P pg (Tape.c6 G X rc (qIn X t.chargeDep))) i j)
        (Pair.damped G.env (pairOf X rvdw P pg (Tape.c6 G X rc (qIn X t.chargeDep))) t.damping cutoff.disp2 6 i j)) x :=
      Bad.sum i (Bad.mul_left (h.C hg _))
    show Bad (Pair.energy G.env _ t.damping cutoff.disp2 i) x
    unfold Pair.energy
    dsimp only
    split
    · exact h6.mul_right.add_left.mul_right
    · exact h6.mul_right.add_left.add_left.mul_right
  | d4ATMApprox => exact hatm _ _ _
  | d4ATMExact => exact absurd hc ht
  | d3ATM => exact hatm _ _ _

theorem total_bad {ts : List Term} {e : Term → Tape} (ht : t ∈ ts) (h : Bad (e t) x) :
    Bad (total ts e) x := by
  unfold total
  have keep : ∀ (l : List Term) (s : Tape), Bad s x → Bad (l.foldl (fun s t => add s (e t)) s) x := by
    intro l
    induction l with
    | nil => intro s he; exact he
    | cons a l ih => intro s he; exact ih _ he.add_left
  have key : ∀ (l : List Term) (s : Tape), t ∈ l → Bad (l.foldl (fun s t => add s (e t)) s) x := by
    intro l
    induction l with
    | nil => intro s hl; simp at hl
    | cons a l ih =>
      intro s hl
      rcases List.mem_cons.1 hl with rfl | hl
      · exact keep l _ h.add_right
      · exact ih _ hl
  exact key ts _ ht

theorem terms_bad {i : Fin n} {ts : List Term} (ht : t ∈ ts)
    (h : Bad (Tape.term G X rvdw (fun _ => p) (fun _ => false) rc al cutoff t i) x) :
    Bad (Tape.terms G X rc al rvdw p cutoff ts i) x := total_bad ht h

end

end Tape

end TadDftd4
