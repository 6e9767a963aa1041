import Verif.Lemmas.HessianDamping

/-!
# Second backward pass through the energy of any dispersion class
-/

set_option linter.unusedSimpArgs false

open scoped Classical Topology

namespace TadDftd4

open Tensor

namespace Tape

variable {G : GradCfg} {n : ℕ} {X : GradSys n} {x : ℝ} {ch : Bool}
  {p : Fin n → Fin 3 → ℝ → ℝ → ℝ} {c q : Fin n → ℝ → ℝ → ℝ}

/-! ## Coefficients -/

/-- Conditions on what the coefficients depend on. -/
structure CoefOk2 (G : GradCfg) (X : GradSys n) (p : Fin n → Fin 3 → ℝ → ℝ → ℝ) (c q : Fin n → ℝ → ℝ → ℝ)
    (ch : Bool) : Prop where
  base : CoefOk G X 0 ch
  zero : X.moved p c q 0 = X
  cn : ∀ i, Fine2 (X.cn i) (c i)
  q : ch = true → ∀ i, Fine2 (X.q i) (q i)

namespace CoefOk2
variable (h : CoefOk2 G X p c q ch)
include h

theorem qIn (i : Fin n) : Fine2 (qIn X ch i) (fun s t => qV (X.moved p c q s) ch i t) := by
  unfold Tape.qIn qV
  cases ch with
  | true => exact h.q rfl i
  | false => exact Fine2.const

theorem q0 (i : Fin n) : qV (X.moved p c q 0) ch i 0 = qV X ch i 0 := by rw [h.zero]

theorem C (i j : Fin n) : Fine2 (c6 G X (rc G) (Tape.qIn X ch) i j)
    (fun s t => c6At G.env G.T G.R (dat (X.moved p c q s) ch i t) (dat (X.moved p c q s) ch j t)) :=
  Fine2.c6 (d := fun i s t => qV (X.moved p c q s) ch i t) rfl h.base.fl h.cn h.base.scale h.base.refc h.qIn
    (fun i => by rw [h.q0]; exact h.base.charge i)
    fun i hr => by rw [h.q0]; exact h.base.real i (h.base.isReal hr)

theorem pol (i : Fin n) (w : ℕ) : Fine2 (pol G X (alphaAt G.env G.T G.ga G.gc G.rq) ch i w)
    (fun s t => polAt G.env G.T G.R (dat (X.moved p c q s) ch i t) w) := by
  unfold Tape.pol polAt polOf
  refine (Fine2.sum fun r : Fin nref => (Fine2.weight (Zp := 0) h.base.fl (h.cn i) (h.qIn i) r.2
    (by rw [h.q0]; exact h.base.charge i) (h.base.scale i)
    (fun hr => h.base.isReal ⟨r, r.2, hr⟩)
    fun hr => by rw [h.q0]; exact h.base.real i (h.base.isReal ⟨r, r.2, hr⟩)).mul
    (Fine2.const (c := alphaAt G.env G.T G.ga G.gc G.rq (X.Z i) r w))).congr' fun s t => ?_
  rw [Finset.sum_range]
  rfl

theorem c9Exact (i j k : Fin n) : Fine2 (c9Exact G X (alphaAt G.env G.T G.ga G.gc G.rq) ch i j k)
    (fun s t => c9At G.env G.T G.R (dat (X.moved p c q s) ch i t) (dat (X.moved p c q s) ch j t)
      (dat (X.moved p c q s) ch k t)) := by
  unfold Tape.c9Exact c9At
  refine (Fine2.const.mul (Fine2.sum fun w : Fin nfreq => ((((h.pol i w).mul (h.pol j w)).mul
    (h.pol k w)).mul (Fine2.const (c := trapzWeights.getD w 0))))).congr' fun s t => ?_
  rw [Finset.sum_range]

theorem c9Approx {i j k : Fin n}
    (hne : |c6At G.env G.T G.R (dat X ch i 0) (dat X ch j 0) *
      c6At G.env G.T G.R (dat X ch i 0) (dat X ch k 0) *
      c6At G.env G.T G.R (dat X ch j 0) (dat X ch k 0)| ≠ G.env.eps) :
    Fine2 (c9Approx G X (rc G) ch i j k) (fun s t => c9aV G (X.moved p c q s) ch i j k t) := by
  have hp := ((h.C i j).mul (h.C i k)).mul (h.C j k)
  rw [← h.zero] at hne
  rcases lt_or_gt_of_ne hne with hl | hl
  · exact Fine2.ssqrt_lt (F := fun s t => |c6At G.env G.T G.R (dat (X.moved p c q s) ch i t)
      (dat (X.moved p c q s) ch j t) * c6At G.env G.T G.R (dat (X.moved p c q s) ch i t)
      (dat (X.moved p c q s) ch k t) * c6At G.env G.T G.R (dat (X.moved p c q s) ch j t)
      (dat (X.moved p c q s) ch k t)|) hp.tame.abs (hp.1.mono fun y hy => eval_abs hy)
      (hp.eventually (P := fun z => |z| < G.env.eps)
        (continuous_abs.continuousAt.eventually_lt continuousAt_const hl))
  · refine Fine2.ssqrt (hp.abs ?_) hl
    intro h0
    rw [h0, abs_zero] at hl
    exact lt_asymm hl G.env.eps_pos

theorem c9Approx_tame (i j k : Fin n) : ∃ v, Tame2 (Tape.c9Approx G X (rc G) ch i j k) 0 v :=
  ⟨_, Tame2.ssqrt (((h.C i j).mul (h.C i k)).mul (h.C j k)).tame.abs⟩

end CoefOk2

/-! ## Three-body terms -/

section atm
variable {rad : Fin n → Fin n → Tape} {s9 alp : Tape} {ρ : Fin n → Fin n → ℝ} {σ α : ℝ}

/-- The radii of the pairs in `P` are positive, or zero if the exponent is three or at least six. -/
def RadOk2 (P : Fin n → Fin n → Prop) (ρ : Fin n → Fin n → ℝ) (α : ℝ) : Prop :=
  ∀ i j, P i j → 0 < ρ i j ∨ (ρ i j = 0 ∧ (α = 3 ∨ 6 ≤ α))

theorem RadOk2.triple {P : Fin n → Fin n → Prop} {i j k : Fin n} (hr : RadOk2 P ρ α)
    (hij : P i j) (hik : P i k) (hjk : P j k) :
    0 < ρ i j * ρ i k * ρ j k ∨ (ρ i j * ρ i k * ρ j k = 0 ∧ (α / 3 = 1 ∨ 2 ≤ α / 3)) := by
  have key : (α = 3 ∨ 6 ≤ α) → (α / 3 = 1 ∨ 2 ≤ α / 3) := by
    rintro (h | h)
    · left; rw [h]; norm_num
    · right; linarith
  rcases hr i j hij with h1 | ⟨h1, ha⟩
  · rcases hr i k hik with h2 | ⟨h2, ha⟩
    · rcases hr j k hjk with h3 | ⟨h3, ha⟩
      · exact Or.inl (mul_pos (mul_pos h1 h2) h3)
      · exact Or.inr ⟨by rw [h3, mul_zero], key ha⟩
    · exact Or.inr ⟨by rw [h2, mul_zero, zero_mul], key ha⟩
  · exact Or.inr ⟨by rw [h1, zero_mul, zero_mul], key ha⟩

theorem fOfV_den {i j k : Fin n} {y : ℝ} (h0 : 0 ≤ ρ i j * ρ i k * ρ j k) :
    0 < 1 + 6 * (1 * (ρ i j * ρ i k * ρ j k / rrV G X i j k y)) ^ (α / 3) := by
  have := Real.rpow_nonneg (mul_nonneg zero_le_one (div_nonneg h0 (rrV_pos (G := G) (X := X) i j k y).le))
    (α / 3)
  positivity

theorem zero9_tame2 {P : Fin n → Fin n → Prop} {i j k : Fin n}
    (hrad : ∀ i j, Steady2 (rad i j) x) (hre : ∀ i j, (rad i j).eval x = .fin (ρ i j))
    (halp : Steady2 alp x) (hae : alp.eval x = .fin α) (hr : RadOk2 P ρ α)
    (hij : P i j) (hik : P i k) (hjk : P j k) :
    Tame2 (zero9 G X rad alp i j k) x (fOfV G X (fun i j _ => ρ i j) (fun _ => α) i j k x) := by
  have hrr : Tame2 (rr G X i j k) x (rrV G X i j k x) :=
    Tame2.sel (P := fun _ => tripleOk X i j k) (Tame2.r1 i j k) Tame2.const
  have hT := fun i j => (hrad i j).tame (hre i j)
  have h3 := ((hT i j).mul (hT i k)).mul (hT j k)
  have ht := (Tame2.const (c := 1)).mul (Tame2.sdiv (env := G.env) h3 hrr (rrV_pos i j k x).ne')
  have h0 := hr.triple hij hik hjk
  have hp := ht.tpow (halp.div (Steady2.const (c := 3))) (p := α / 3) (by simp [Tape.eval, hae, FP.div]) (by
    rcases h0 with h0 | ⟨h0, ha⟩
    · left
      rw [one_mul]
      exact div_pos h0 (rrV_pos i j k x)
    · exact Or.inr ⟨by rw [h0]; simp, ha⟩)
  have h0' : 0 ≤ ρ i j * ρ i k * ρ j k := by
    rcases h0 with h0 | ⟨h0, -⟩
    · exact h0.le
    · exact h0.ge
  exact (Tame2.const (c := 1)).div ((Tame2.const (c := 1)).add ((Tame2.const (c := 6)).mul hp))
    (fOfV_den h0').ne'

theorem zero9_fine2 {P : Fin n → Fin n → Prop} {i j k : Fin n} (hpos : PosOk2 G X p c q)
    (hrad : ∀ i j, Steady2 (rad i j) 0) (hre : ∀ i j y, (rad i j).eval y = .fin (ρ i j))
    (halp : Steady2 alp 0) (hae : ∀ y, alp.eval y = .fin α) (hr : RadOk2 P ρ α)
    (hij : P i j) (hik : P i k) (hjk : P j k) :
    Fine2 (zero9 G X rad alp i j k)
      (fun s t => fOfV G (X.moved p c q s) (fun i j _ => ρ i j) (fun _ => α) i j k t) := by
  have hrr : Fine2 (rr G X i j k) (fun s t => rrV G (X.moved p c q s) i j k t) :=
    Fine2.sel_const (hpos.r1 i j k) Fine2.const
  have hT := fun i j => (hrad i j).fine (hre i j)
  have h3 := ((hT i j).mul (hT i k)).mul (hT j k)
  have ht := (Fine2.const (c := 1)).mul (Fine2.sdiv (env := G.env) h3 hrr (rrV_pos i j k 0).ne')
  have h0 := hr.triple hij hik hjk
  have hp := ht.tpow (halp.div (Steady2.const (c := 3))) (p := α / 3)
    (fun y => by simp [Tape.eval, hae, FP.div]) (by
    rcases h0 with h0 | ⟨h0, ha⟩
    · left
      rw [one_mul]
      exact div_pos h0 (rrV_pos i j k 0)
    · exact Or.inr ⟨fun s t => by rw [h0]; simp, ha⟩)
  have h0' : 0 ≤ ρ i j * ρ i k * ρ j k := by
    rcases h0 with h0 | ⟨h0, -⟩
    · exact h0.le
    · exact h0.ge
  exact (Fine2.const (c := 1)).div ((Fine2.const (c := 1)).add ((Fine2.const (c := 6)).mul hp))
    (fOfV_den h0').ne'

/-- Nothing flows back through a masked triple. -/
theorem zero9_dead2 {i j k : Fin n} (ht : ¬ tripleOk X i j k)
    (hrad : ∀ i j, Steady2 (rad i j) x) (halp : Steady2 alp x) : Dead2 (zero9 G X rad alp i j k) x := by
  have hrr : Dead2 (rr G X i j k) x :=
    Dead2.masked (P := fun _ => tripleOk X i j k) (Tame2.r1 i j k) Steady2.const ht
  have hR := fun i j => Dead2.of_still (hrad i j)
  exact Dead2.const.div (Dead2.const.add (Dead2.const.mul (Dead2.tpow (Dead2.const.mul (Dead2.sdiv
    (((hR i j).mul (hR i k)).mul (hR j k)) hrr)) ((Dead2.of_still halp).div Dead2.const))))

theorem atm_tame2 (hrad : ∀ i j, Steady2 (rad i j) x) (hre : ∀ i j, (rad i j).eval x = .fin (ρ i j))
    (halp : Steady2 alp x) (hae : alp.eval x = .fin α) (hr : RadOk2 (pairOk X) ρ α) (hs9 : Tame2 s9 x σ)
    {c9 : Fin n → Fin n → Fin n → Tape} {C : Fin n → Fin n → Fin n → ℝ → ℝ}
    (h9 : ∀ i j k, Tame2 (c9 i j k) x (C i j k x)) (i : Fin n) :
    Tame2 (atm G X rad s9 alp c9 i) x
      (atmV G X (fun i j _ => ρ i j) (fun _ => σ) (fun _ => α) C i x) := by
  refine (Tame2.sum fun j => Tame2.sum fun k => ?_).div Tame2.const (by norm_num)
  refine (((Tame2.ang i j k).mul ?_).mul hs9).mul (h9 i j k)
  by_cases hok : tripleOk X i j k
  · obtain ⟨hi, hj, hk, hij, hik, hjk⟩ := hok
    exact Tame2.sel (P := fun _ => tripleOk X i j k)
      (zero9_tame2 hrad hre halp hae hr ⟨hi, hj, hij⟩ ⟨hi, hk, hik⟩ ⟨hj, hk, hjk⟩) (Tame2.const (c := 0))
  · refine (Dead2.tame_sel (P := fun _ => tripleOk X i j k) (zero9_dead2 hok hrad halp)
      (Tame2.const (c := 0)) hok).congr ?_
    rw [if_neg hok]

theorem atm_fine2 (hpos : PosOk2 G X p c q) (hcut : 0 ≤ G.cut3)
    (hne : ∀ i j, pairOk X i j → dV G X i j 0 ≠ G.cut3)
    (hrad : ∀ i j, Steady2 (rad i j) 0) (hre : ∀ i j y, (rad i j).eval y = .fin (ρ i j))
    (halp : Steady2 alp 0) (hae : ∀ y, alp.eval y = .fin α) (hr : RadOk2 (pairOk X) ρ α)
    (hs9 : Fine2 s9 fun _ _ => σ) {c9 : Fin n → Fin n → Fin n → Tape}
    {C : Fin n → Fin n → Fin n → ℝ → ℝ → ℝ} (h9 : ∀ i j k, tripleOk X i j k → Fine2 (c9 i j k) (C i j k))
    (ht : ∀ i j k, ∃ v, Tame2 (c9 i j k) 0 v)
    (he : ∀ i j k, ∀ᶠ y in 𝓝 0, ∃ d, (c9 i j k).eval y = .fin d) (i : Fin n) :
    Fine2 (atm G X rad s9 alp c9 i) (fun s t => atmV G (X.moved p c q s) (fun i j _ => ρ i j)
      (fun _ => σ) (fun _ => α) (fun i j k => C i j k s) i t) := by
  refine (Fine2.sum fun j => Fine2.sum fun k => ?_).div Fine2.const (by norm_num)
  have hang := hpos.ang hcut hne i j k
  have hok' : ∀ s, tripleOk (X.moved p c q s) i j k ↔ tripleOk X i j k := fun s => Iff.rfl
  by_cases hok : tripleOk X i j k
  · obtain ⟨hi, hj, hk, hij, hik, hjk⟩ := hok
    have hok : tripleOk X i j k := ⟨hi, hj, hk, hij, hik, hjk⟩
    have hf : Fine2 (fdampOf G X rad alp i j k) (fun s t => if tripleOk (X.moved p c q s) i j k then
        fOfV G (X.moved p c q s) (fun i j _ => ρ i j) (fun _ => α) i j k t else 0) :=
      (Fine2.sel_true (P := fun _ => tripleOk X i j k) (zero9_fine2 hpos hrad hre halp hae hr
        ⟨hi, hj, hij⟩ ⟨hi, hk, hik⟩ ⟨hj, hk, hjk⟩) (Tame2.const (c := 0))
        (.of_forall fun _ => hok)).congr' fun s t => by rw [if_pos ((hok' s).2 hok)]
    exact ((hang.mul hf).mul hs9).mul (h9 i j k hok)
  · have hf : Fine2 (fdampOf G X rad alp i j k) (fun s t => if tripleOk (X.moved p c q s) i j k then
        fOfV G (X.moved p c q s) (fun i j _ => ρ i j) (fun _ => α) i j k t else 0) :=
      (Dead2.fine_sel (P := fun _ => tripleOk X i j k) (zero9_dead2 hok hrad halp)
        (Fine2.const (c := 0)) (.of_forall fun _ => hok)).congr' fun s t => by
          rw [if_neg fun h => hok ((hok' s).1 h)]
    have h1 := (hang.mul hf).mul hs9
    have h2 := h1.congr' (F' := fun _ _ => 0) fun s t => by
      rw [if_neg fun h => hok ((hok' s).1 h)]
      simp
    obtain ⟨v, hv⟩ := ht i j k
    refine (h2.mul_null hv (he i j k)).congr' fun s t => ?_
    rw [if_neg fun h => hok ((hok' s).1 h)]
    simp

end atm

/-! ## Terms -/

section
variable {rvdw : Fin n → Fin n → ℝ} {par : Param} {cutoff : Cutoff} {t : Term} {S : Spec.Settings}

theorem still_entry (m : DName) : Steady2 (entry (fun _ => par) (fun _ => false) m) x := Steady2.frozen

theorem still_radBJ (i j : Fin n) : Steady2 (radBJ G X (fun _ => par) (fun _ => false) i j) x :=
  (Steady2.frozen.mul Steady2.const).add Steady2.frozen

theorem eval_radBJ (i j : Fin n) (y : ℝ) :
    (radBJ G X (fun _ => par) (fun _ => false) i j).eval y = .fin (radBJV G X (fun _ => par) i j 0) := rfl

theorem still_radVdW (i j : Fin n) : Steady2 (radVdW rvdw (fun _ => par) (fun _ => false) i j) x :=
  Steady2.frozen.mul Steady2.const

theorem eval_radVdW (i j : Fin n) (y : ℝ) :
    (radVdW rvdw (fun _ => par) (fun _ => false) i j).eval y = .fin (radVdWV rvdw (fun _ => par) i j 0) := rfl

/-- Conditions for the second backward pass to yield the mixed derivative of the energy of a term. -/
structure TermOk2 (G : GradCfg) (X : GradSys n) (rvdw : Fin n → Fin n → ℝ) (par : Param) (cutoff : Cutoff)
    (p : Fin n → Fin 3 → ℝ → ℝ → ℝ) (c q : Fin n → ℝ → ℝ → ℝ) (t : Term) : Prop where
  base : TermOk G X rvdw par cutoff 0 t
  zero : X.moved p c q 0 = X
  pos : ∀ i k, X.Z i ≠ 0 → Fine2 (X.pos i k) (p i k)
  cn : ∀ i, Fine2 (X.cn i) (c i)
  q : t.chargeDep = true → ∀ i, Fine2 (X.q i) (q i)
  bj : t.cls = .d4ATMApprox ∨ t.cls = .d4ATMExact →
    RadOk2 (pairOk X) (fun i j => radBJV G X (fun _ => par) i j 0) (par.read3 .alp)
  vdw : t.cls = .d3ATM → RadOk2 (pairOk X) (fun i j => radVdWV rvdw (fun _ => par) i j 0) (par.read3 .alp)

theorem TermOk2.posOk (h : TermOk2 G X rvdw par cutoff p c q t) : PosOk2 G X p c q :=
  ⟨h.zero, h.pos, h.base.pos.apart⟩

theorem TermOk2.coef (h : TermOk2 G X rvdw par cutoff p c q t) : CoefOk2 G X p c q t.chargeDep :=
  ⟨h.base.coef, h.zero, h.cn, h.q⟩

theorem pairOf_moved {C : Fin n → Fin n → Tape} (s : ℝ) :
    (pairOf X rvdw (fun _ => par) (fun _ => false) C).moved p s =
      pairOf (X.moved p c q s) rvdw (fun _ => par) (fun _ => false) C := rfl

theorem pairOf_damp {C : Fin n → Fin n → Tape} (hu : t.damping.Usable G.env par)
    (hs : ∀ i j, pairOk X i j → t.damping.SmoothFor par (rvdw i j))
    (hop : t.damping = .op → ∀ a1 a2, par.a1 = .val a1 → par.a2 = .val a2 → ∀ i j, pairOk X i j →
      0 < a1 * √(3 * X.Q i * X.Q j) + a2) (i j : Fin n) (hij : pairOk X i j) (k : ℕ) (hk : k = 6 ∨ k = 8)
    (hz : Pair.zeroed par.isNone k = false) : Pair.DampAt t.damping k par.read
      (Pair.radius (pairOf X rvdw (fun _ => par) (fun _ => false) C) t.damping i j) := by
  obtain ⟨f, hf⟩ : ∃ f, t.damping.point G.env k false par.kw = .ok f := by
    rcases hk with rfl | rfl
    · exact hu.f6
    · exact hu.f8
  refine dampAt_of_smooth (R := rvdw i j) hk hf hz (hs i j hij) (fun hr => ?_)
    fun ho a1 a2 h1 h2 => ?_
  · unfold Pair.radius
    rw [hr]
    rfl
  · rw [ho]
    exact hop ho a1 a2 h1 h2 i j hij

/-- The second backward pass through a term. -/
theorem term_fine2 (h : TermOk2 G X rvdw par cutoff p c q t) (hG : G.cut3 = cutoff.disp3)
    (hS : TermPar G.env G.T G.R par cutoff t S) (hu : t.Usable G.env G.R par cutoff) (i : Fin n) :
    Fine2 (term G X rvdw (fun _ => par) (fun _ => false) (rc G) (alphaAt G.env G.T G.ga G.gc G.rq) cutoff t i)
      (fun s y => t.energy S (molV (X.moved p c q s) rvdw y) i) := by
  have three : t.cls ≠ .twoBody → ∀ (rad : Fin n → Fin n → Tape) (ρ : Fin n → Fin n → ℝ)
      (Rr : ℝ → ℝ → Fin n → Fin n → ℝ),
      (∀ i j, Steady2 (rad i j) 0) → (∀ i j y, (rad i j).eval y = .fin (ρ i j)) →
      RadOk2 (pairOk X) ρ (par.read3 .alp) → (∀ i j s y, ρ i j = Rr s y i j) →
      ∀ (c9 : Fin n → Fin n → Fin n → Tape) (C : Fin n → Fin n → Fin n → ℝ → ℝ → ℝ),
      (∀ i j k, tripleOk X i j k → Fine2 (c9 i j k) (C i j k)) →
      (∀ i j k, ∃ v, Tame2 (c9 i j k) 0 v) → (∀ i j k, ∀ᶠ y in 𝓝 0, ∃ d, (c9 i j k).eval y = .fin d) →
      Fine2 (atm G X rad (entry (fun _ => par) (fun _ => false) .s9)
        (entry (fun _ => par) (fun _ => false) .alp) c9 i)
        (fun s y => Spec.e3 S (molV (X.moved p c q s) rvdw y) (fun i j k => C i j k s y) (Rr s y) i) := by
    intro hc rad ρ Rr hf hre hr hR c9 C h1 h2 h3
    have hcut : 0 ≤ G.cut3 := by rw [hG]; exact hu.cut3 hc
    obtain ⟨⟨hs9, alp, ha, h9⟩, h10, h11⟩ := hS.three hc
    rw [hu.zero hc, point9_zero] at h9
    refine (atm_fine2 (σ := par.read3 .s9) h.posOk hcut (by rw [hG]; exact h.base.cut3 hc) hf hre
      (still_entry .alp) (fun _ => rfl) hr ((still_entry .s9).fine fun _ => rfl) h1 h2 h3 i).congr' fun s y => ?_
    exact atmV_eq hcut hS.ε i y (PVal.Is.num hs9).symm (h10.trans hG.symm)
      (by rw [show par.read3 .alp = alp from PVal.Is.num ha]; exact (Except.ok.inj h9).symm)
      (fun _ _ _ => rfl) fun i j => hR i j s y
  have hbj : t.cls = .d4ATMApprox ∨ t.cls = .d4ATMExact → ∀ i j s y,
      radBJV G X (fun _ => par) i j 0 = Spec.R0 S (molV (X.moved p c q s) rvdw y) i j := fun hc i j s y =>
    radBJV_eq (rvdw := rvdw) (X := X.moved p c q s) (P := fun _ => par) (S := fun _ => S) (fun _ => hS) hc i j y
  have hc9 := fun s => c9aV_eq (rvdw := rvdw) (X := X.moved p c q s) hS
  have hCe := fun i j k => ((h.coef.C i j).mul (h.coef.C i k)).mul (h.coef.C j k)
  have ha : ∀ i j k, ∀ᶠ y in 𝓝 0, ∃ d, (c9Approx G X (rc G) t.chargeDep i j k).eval y = .fin d :=
    fun i j k => (hCe i j k).1.mono fun y hy => ⟨_, eval_ssqrt (eval_abs hy)⟩
  unfold term termOf Term.energy
  cases hc : t.cls with
  | twoBody =>
    obtain ⟨h2, hcut⟩ := hS.two hc
    refine (Pair.fine2_energy (P := p) (C := fun i j s y => c6At G.env G.T G.R
      (dat (X.moved p c q s) t.chargeDep i y) (dat (X.moved p c q s) t.chargeDep j y)) ?_ i).congr' fun s y => ?_
    · refine ⟨h.base.coef.fl, ?_, h.pos, fun i j hij => ?_, h.coef.C, fun m => Steady2.frozen, fun m y => rfl,
        pairOf_damp (hu.two hc) (h.base.damping hc) (h.base.op hc), fun i j hij => ?_,
        fun h10 => (hu.two hc).ten h10⟩
      · rw [pairOf_moved (c := c) (q := q), h.zero]
      · rw [pairOf_sqD]
        exact h.base.pos.apart i j hij.1 hij.2.1 hij.2.2
      · have := h.base.cut2 hc i j hij
        rw [dV, if_pos (show pairOk X i j from hij)] at this
        rw [pairOf_distV hij]
        exact this
    · refine pairOf_energy (X := X.moved p c q s) hS.ε y h2 (hu.two hc) rfl hcut i fun i j => ?_
      rw [hS.c6, dat_eq (rvdw := rvdw), dat_eq (rvdw := rvdw)]
  | d4ATMApprox =>
    refine (three (by rw [hc]; simp) _ _ _ still_radBJ eval_radBJ (h.bj (Or.inl hc)) (hbj (Or.inl hc))
      (c9Approx G X (rc G) t.chargeDep) (fun i j k s y => c9aV G (X.moved p c q s) t.chargeDep i j k y)
      (fun i j k hk => h.coef.c9Approx (h.base.c9 (Or.inl hc) i j k hk))
      h.coef.c9Approx_tame ha).congr' fun s y => ?_
    rw [hc9 s y]
  | d4ATMExact =>
    have hx := fun i j k => h.coef.c9Exact i j k
    refine (three (by rw [hc]; simp) _ _ _ still_radBJ eval_radBJ (h.bj (Or.inr hc)) (hbj (Or.inr hc)) _ _
      (fun i j k _ => hx i j k)
      (fun i j k => ⟨_, (hx i j k).tame⟩) fun i j k => ?_).congr' fun s y => ?_
    · filter_upwards [(hx i j k).1] with y hy
      exact ⟨_, hy⟩
    · rw [(hS.exact hc).2]
      simp only [dat_eq (rvdw := rvdw)]
  | d3ATM =>
    refine (three (by rw [hc]; simp) _ _ _ still_radVdW eval_radVdW (h.vdw hc)
      (fun i j s y => radVdWV_eq (X := X.moved p c q s) (P := fun _ => par) (S := fun _ => S) (fun _ => hS) hc i j y)
      (c9Approx G X (rc G) t.chargeDep) (fun i j k s y => c9aV G (X.moved p c q s) t.chargeDep i j k y)
      (fun i j k hk => h.coef.c9Approx (h.base.c9 (Or.inr hc) i j k hk))
      h.coef.c9Approx_tame ha).congr' fun s y => ?_
    rw [hc9 s y]

theorem total_fine2 {ts : List Term} {e : Term → Tape} {f : Term → ℝ → ℝ → ℝ}
    (h : ∀ t ∈ ts, Fine2 (e t) (f t)) :
    Fine2 (total ts e) (fun s y => (ts.map fun t => f t s y).sum) := by
  unfold total
  have key : ∀ (l : List Term) (z : Tape) (g : ℝ → ℝ → ℝ), (∀ t ∈ l, t ∈ ts) → Fine2 z g →
      Fine2 (l.foldl (fun s t => add s (e t)) z) (fun s y => g s y + (l.map fun t => f t s y).sum) := by
    intro l
    induction l with
    | nil => intro z g _ he; simpa using he
    | cons t l ih =>
      intro z g hl he
      have := ih _ _ (fun t ht => hl t (by simp [ht])) (he.add (h t (hl t (by simp))))
      simpa [add_assoc] using this
  have := key ts (const 0) (fun _ _ => 0) (fun _ h => h) Fine2.const
  simpa using this

/-- The second backward pass through the sum over the terms. -/
theorem terms_fine2 {ts : List Term} {S : Term → Spec.Settings}
    (h : ∀ t ∈ ts, TermOk2 G X rvdw par cutoff p c q t) (hG : G.cut3 = cutoff.disp3)
    (hS : ∀ t ∈ ts, TermPar G.env G.T G.R par cutoff t (S t))
    (hu : ∀ t ∈ ts, t.Usable G.env G.R par cutoff) (i : Fin n) :
    Fine2 (terms G X (rc G) (alphaAt G.env G.T G.ga G.gc G.rq) rvdw par cutoff ts i)
      (fun s y => (ts.map fun t => t.energy (S t) (molV (X.moved p c q s) rvdw y) i).sum) :=
  total_fine2 fun t ht => term_fine2 (h t ht) hG (hS t ht) (hu t ht) i

/-! ## Finite entries wherever the atoms are -/

/-- Conditions for finite entries. -/
structure FinTerm2 (G : GradCfg) (X : GradSys n) (rvdw : Fin n → Fin n → ℝ) (par : Param) (x : ℝ)
    (t : Term) : Prop where
  base : FinTerm G X rvdw par x t
  weights : t.cls ≠ .d4ATMExact → ∀ i j, PowOk2 G (G.wf (X.Z i) (X.Z j)) (X.Z i) (X.cnFn i x)
  pow0 : t.cls = .d4ATMExact → ∀ i, PowOk2 G (G.wf (X.Z i) 0) (X.Z i) (X.cnFn i x)
  bj : t.cls = .d4ATMApprox ∨ t.cls = .d4ATMExact →
    RadOk2 (pairOk X) (fun i j => radBJV G X (fun _ => par) i j 0) (par.read3 .alp)
  vdw : t.cls = .d3ATM → RadOk2 (pairOk X) (fun i j => radVdWV rvdw (fun _ => par) i j 0) (par.read3 .alp)

theorem qIn_tame2 (ch : Bool) (i : Fin n) : Tame2 (qIn X ch i) x (qV X ch i x) := by
  unfold Tape.qIn qV
  cases ch with
  | true => exact Tame2.input
  | false => exact Tame2.const

theorem FinTerm2.C (h : FinTerm2 G X rvdw par x t) (ht : t.cls ≠ .d4ATMExact) (i j : Fin n) :
    Tame2 (c6 G X (rc G) (qIn X t.chargeDep) i j) x
      (c6At G.env G.T G.R (dat X t.chargeDep i x) (dat X t.chargeDep j x)) := by
  have hw : ∀ i j, WOk2 G X x i j (qV X t.chargeDep i x) := fun i j =>
    ⟨h.weights ht i j, (h.base.weights ht i j).norm, (h.base.weights ht i j).charge⟩
  exact Tame2.c6 (d := fun i => qV X t.chargeDep i x) rfl (qIn_tame2 t.chargeDep) (hw i j) (hw j i)

theorem FinTerm2.c9Approx (h : FinTerm2 G X rvdw par x t) (ht : t.cls ≠ .d4ATMExact) (i j k : Fin n) :
    Tame2 (Tape.c9Approx G X (rc G) t.chargeDep i j k) x (c9aV G X t.chargeDep i j k x) :=
  Tame2.ssqrt (((h.C ht i j).mul (h.C ht i k)).mul (h.C ht j k)).abs

theorem FinTerm2.pol (h : FinTerm2 G X rvdw par x t) (ht : t.cls = .d4ATMExact) (i : Fin n) (w : ℕ) :
    Tame2 (Tape.pol G X (alphaAt G.env G.T G.ga G.gc G.rq) t.chargeDep i w) x
      (polAt G.env G.T G.R (dat X t.chargeDep i x) w) := by
  unfold Tape.pol polAt polOf
  refine (Tame2.sum fun r : Fin nref => (Tame2.weight (Zp := 0) (c := X.cnFn i x) Tame2.input
    (qIn_tame2 t.chargeDep i) r.2 (h.pow0 ht i) (h.base.norm0 ht i) (h.base.charge0 ht i)).mul
    (Tame2.const (c := alphaAt G.env G.T G.ga G.gc G.rq (X.Z i) r w))).congr ?_
  rw [Finset.sum_range]
  rfl

theorem FinTerm2.c9Exact (h : FinTerm2 G X rvdw par x t) (ht : t.cls = .d4ATMExact) (i j k : Fin n) :
    Tame2 (Tape.c9Exact G X (alphaAt G.env G.T G.ga G.gc G.rq) t.chargeDep i j k) x
      (c9At G.env G.T G.R (dat X t.chargeDep i x) (dat X t.chargeDep j x) (dat X t.chargeDep k x)) := by
  unfold Tape.c9Exact c9At
  refine (Tame2.const.mul (Tame2.sum fun w : Fin nfreq => ((((h.pol ht i w).mul (h.pol ht j w)).mul
    (h.pol ht k w)).mul (Tame2.const (c := trapzWeights.getD w 0))))).congr ?_
  rw [Finset.sum_range]

end

/-- Conditions for finite second derivatives of the two-body energy. -/
structure Pair.FinOk2 {env : Env} {m : ℕ} (X : PairSys n m) (C : Fin n → Fin n → ℝ) (d : Damping) (x : ℝ) :
    Prop where
  c6 : ∀ i j, Tame2 (Pair.c6 X i j) x (C i j)
  damp : ∀ i j, ok X i j → ∀ k, k = 6 ∨ k = 8 → zeroed X.isNone k = false →
    DampAt d k (parV X x) (radius X d i j)
  fl : d ≠ .rational → ∀ i j, ok X i j → ∀ k, k = 6 ∨ k = 8 →
    env.fl (distV env X i j x ^ k) = distV env X i j x ^ k
  ten : X.isNone .s10 = false → d = .rational
  par : ∀ m, Steady2 (Pair.par X m) x

namespace Pair
variable {env : Env} {m : ℕ} {X : PairSys n m} {d : Damping} {cut : ℝ} {C : Fin n → Fin n → ℝ}

theorem tame2_damped (h : FinOk2 (env := env) X C d x) {k : ℕ}
    (hk : k = 6 ∨ k = 8 ∨ (k = 10 ∧ X.isNone .s10 = false)) (i j : Fin n) :
    Tame2 (damped env X d cut k i j) x (tV env X d cut k i j x) := by
  have hD := tame2_distance (env := env) (X := X) (x := x) i j
  unfold damped
  by_cases hij : ok X i j
  · have hdamp : Tame2 (Pair.call env X.isNone d k (distance env X i j) (radius X d i j) (Pair.par X)) x
        (callV env X.isNone d k (parV X x) (distV env X i j x) (radius X d i j)) := by
      unfold call callV
      by_cases hz : zeroed X.isNone k = true
      · simp only [hz, if_true]
        exact Tame2.const
      · simp only [hz]
        have hz : zeroed X.isNone k = false := by simpa using hz
        have h10 : k = 10 → d = .rational := fun h10 => h.ten (by
          rcases hk with rfl | rfl | ⟨-, h⟩
          · simp at h10
          · simp at h10
          · exact h)
        refine tame2_damp (v := parV X x) ?_ hD h.par (fun m => by rw [par_eval]; rfl) (distV_pos i j x) ?_ fun hr => ?_
        · rcases hk with rfl | rfl | ⟨rfl, -⟩ <;> decide
        · rcases hk with hk | hk | ⟨hk, -⟩
          · exact h.damp i j hij k (Or.inl hk) hz
          · exact h.damp i j hij k (Or.inr hk) hz
          · rw [h10 hk]
            trivial
        · rcases hk with hk | hk | ⟨hk, -⟩
          · exact h.fl hr i j hij k (Or.inl hk)
          · exact h.fl hr i j hij k (Or.inr hk)
          · exact absurd (h10 hk) hr
    refine (Tame2.sel (P := fun y => ok X i j ∧ ((distance env X i j).eval y).le cut) hdamp
      (Tame2.const (c := 0))).congr ?_
    rw [hD.eval]
    rfl
  · refine (Dead2.tame_sel (P := fun y => ok X i j ∧ ((distance env X i j).eval y).le cut)
      ?_ (Tame2.const (c := 0)) fun h => hij h.1).congr ?_
    · unfold call
      split
      · exact Dead2.const
      · exact dead2_damp (dead2_distance hij) h.par
    · rw [tV, if_neg fun h => hij h.1]

theorem tame2_energy (h : FinOk2 (env := env) X C d x) (i : Fin n) :
    Tame2 (energy env X d cut i) x (enV env X (fun i j _ => C i j) d cut i x) := by
  have hp : ∀ m, Tame2 (Pair.par X m) x (X.parFn m x) := fun m => (h.par m).tame (par_eval m)
  have he := ((hp .s6).mul (Tame2.sum fun j => (h.c6 i j).mul
    (tame2_damped (cut := cut) h (Or.inl rfl) i j))).add ((hp .s8).mul (Tame2.sum fun j =>
    ((h.c6 i j).mul (Tame2.const (c := 3 * X.Q i * X.Q j))).mul
      (tame2_damped (cut := cut) h (Or.inr (Or.inl rfl)) i j)))
  unfold energy enV
  by_cases h10 : X.isNone .s10 = true
  · simp only [h10, if_true]
    exact Tame2.const.mul he
  · have hf : X.isNone .s10 = false := by simpa using h10
    simp only [hf, Bool.false_eq_true, if_false]
    exact Tame2.const.mul (he.add ((hp .s10).mul (Tame2.sum fun j =>
      ((((h.c6 i j).mul (Tame2.const (c := (3 * X.Q i * X.Q j) ^ 2))).mul
        (Tame2.const (c := 49))).div (Tame2.const (c := 40)) (by norm_num)).mul
        (tame2_damped (cut := cut) h (Or.inr (Or.inr ⟨rfl, hf⟩)) i j))))

end Pair

section
variable {rvdw : Fin n → Fin n → ℝ} {par : Param} {cutoff : Cutoff} {t : Term} {S : Spec.Settings}

/-- Both backward passes through a term yield finite numbers. -/
theorem term_tame2 (h : FinTerm2 G X rvdw par x t) (hG : G.cut3 = cutoff.disp3)
    (hS : TermPar G.env G.T G.R par cutoff t S) (hu : t.Usable G.env G.R par cutoff) (i : Fin n) :
    Tame2 (term G X rvdw (fun _ => par) (fun _ => false) (rc G) (alphaAt G.env G.T G.ga G.gc G.rq) cutoff t i) x
      (t.energy S (molV X rvdw x) i) := by
  have three : t.cls ≠ .twoBody → ∀ (rad : Fin n → Fin n → Tape) (ρ : Fin n → Fin n → ℝ)
      (Rr : Fin n → Fin n → ℝ), (∀ i j, Steady2 (rad i j) x) → (∀ i j y, (rad i j).eval y = .fin (ρ i j)) →
      RadOk2 (pairOk X) ρ (par.read3 .alp) → (∀ i j, ρ i j = Rr i j) →
      ∀ (c9 : Fin n → Fin n → Fin n → Tape) (C : Fin n → Fin n → Fin n → ℝ → ℝ),
      (∀ i j k, Tame2 (c9 i j k) x (C i j k x)) →
      Tame2 (atm G X rad (entry (fun _ => par) (fun _ => false) .s9)
        (entry (fun _ => par) (fun _ => false) .alp) c9 i) x
        (Spec.e3 S (molV X rvdw x) (fun i j k => C i j k x) Rr i) := by
    intro hc rad ρ Rr hf hre hr hR c9 C h1
    have hcut : 0 ≤ G.cut3 := by rw [hG]; exact hu.cut3 hc
    obtain ⟨⟨hs9, alp, ha, h9⟩, h10, h11⟩ := hS.three hc
    rw [hu.zero hc, point9_zero] at h9
    refine (atm_tame2 (σ := par.read3 .s9) (α := par.read3 .alp) hf (fun i j => hre i j x) (still_entry .alp) rfl hr
      ((still_entry .s9).tame rfl) h1 i).congr ?_
    exact atmV_eq hcut hS.ε i x (PVal.Is.num hs9).symm (h10.trans hG.symm)
      (by rw [show par.read3 .alp = alp from PVal.Is.num ha]; exact (Except.ok.inj h9).symm)
      (fun _ _ _ => rfl) hR
  have hbj : t.cls = .d4ATMApprox ∨ t.cls = .d4ATMExact → ∀ i j,
      radBJV G X (fun _ => par) i j 0 = Spec.R0 S (molV X rvdw x) i j := fun hc i j =>
    radBJV_eq (rvdw := rvdw) (X := X) (P := fun _ => par) (S := fun _ => S) (fun _ => hS) hc i j x
  have hc9 := c9aV_eq (rvdw := rvdw) (X := X) hS
  unfold term termOf Term.energy
  cases hc : t.cls with
  | twoBody =>
    obtain ⟨h2, hcut⟩ := hS.two hc
    have hu2 := hu.two hc
    refine (Pair.tame2_energy (C := fun i j =>
      c6At G.env G.T G.R (dat X t.chargeDep i x) (dat X t.chargeDep j x)) ?_ i).congr ?_
    · refine ⟨h.C (by rw [hc]; simp), pairOf_damp hu2 (h.base.damping hc) (h.base.op hc),
        fun hr i j hij k hk => ?_, fun h10 => hu2.ten h10, fun m => Steady2.frozen⟩
      have := h.base.fl hc hr i j hij k hk
      rw [show dV G X i j x = Pair.distV G.env (pairOf X rvdw (fun _ => par) (fun _ => false)
          (c6 G X (rc G) (qIn X t.chargeDep))) i j x by
        rw [pairOf_distV hij, dV, if_pos (show pairOk X i j from hij)]; rfl] at this
      exact this
    · refine pairOf_energy hS.ε x h2 hu2 rfl hcut i fun i j => ?_
      rw [hS.c6, dat_eq (rvdw := rvdw), dat_eq (rvdw := rvdw)]
  | d4ATMApprox =>
    refine (three (by rw [hc]; simp) _ _ _ still_radBJ eval_radBJ (h.bj (Or.inl hc)) (hbj (Or.inl hc))
      _ (c9aV G X t.chargeDep) (h.c9Approx (by rw [hc]; simp))).congr ?_
    rw [hc9 x]
  | d4ATMExact =>
    refine (three (by rw [hc]; simp) _ _ _ still_radBJ eval_radBJ (h.bj (Or.inr hc)) (hbj (Or.inr hc))
      _ (fun i j k y => c9At G.env G.T G.R (dat X t.chargeDep i y) (dat X t.chargeDep j y)
        (dat X t.chargeDep k y)) (h.c9Exact hc)).congr ?_
    rw [(hS.exact hc).2]
    simp only [dat_eq (rvdw := rvdw)]
  | d3ATM =>
    refine (three (by rw [hc]; simp) _ _ _ still_radVdW eval_radVdW (h.vdw hc)
      (fun i j => radVdWV_eq (X := X) (P := fun _ => par) (S := fun _ => S) (fun _ => hS) hc i j x)
      _ (c9aV G X t.chargeDep) (h.c9Approx (by rw [hc]; simp))).congr ?_
    rw [hc9 x]

theorem total_tame2 {ts : List Term} {e : Term → Tape} {f : Term → ℝ}
    (h : ∀ t ∈ ts, Tame2 (e t) x (f t)) : Tame2 (total ts e) x (ts.map f).sum := by
  unfold total
  have key : ∀ (l : List Term) (s : Tape) (g : ℝ), (∀ t ∈ l, t ∈ ts) → Tame2 s x g →
      Tame2 (l.foldl (fun s t => add s (e t)) s) x (g + (l.map f).sum) := by
    intro l
    induction l with
    | nil => intro s g _ he; simpa using he
    | cons t l ih =>
      intro s g hl he
      have := ih _ _ (fun t ht => hl t (by simp [ht])) (he.add (h t (hl t (by simp))))
      simpa [add_assoc] using this
  simpa using key ts (const 0) 0 (fun _ h => h) Tame2.const

theorem terms_tame2 {ts : List Term} {S : Term → Spec.Settings}
    (h : ∀ t ∈ ts, FinTerm2 G X rvdw par x t) (hG : G.cut3 = cutoff.disp3)
    (hS : ∀ t ∈ ts, TermPar G.env G.T G.R par cutoff t (S t))
    (hu : ∀ t ∈ ts, t.Usable G.env G.R par cutoff) (i : Fin n) :
    Tame2 (terms G X (rc G) (alphaAt G.env G.T G.ga G.gc G.rq) rvdw par cutoff ts i) x
      (ts.map fun t => t.energy (S t) (molV X rvdw x) i).sum :=
  total_tame2 fun t ht => term_tame2 (h t ht) hG (hS t ht) (hu t ht) i

end

end Tape

end TadDftd4
