import Verif.Lemmas.AutogradDisp

/-!
# Finite gradients for any dispersion class, wherever the atoms are
-/

set_option linter.unusedSimpArgs false

open scoped Classical Topology

namespace TadDftd4

open Tensor

namespace Tape

variable {a b : Tape} {c c' x : ℝ}

theorem Tame.tpow_zero (ha : Tame a x c) (hb : Tame b x c') (h0 : 0 < c ∨ (c = 0 ∧ 1 ≤ c')) :
    Tame (Tape.tpow a b) x (c ^ c') := by
  rcases h0 with h0 | ⟨rfl, hp⟩
  · exact ha.tpow hb h0
  · obtain ⟨e1, v, hv⟩ := ha
    obtain ⟨e2, w, hw⟩ := hb
    have hp0 : c' ≠ 0 := by linarith
    have hpp : 0 ≤ c' := by linarith
    refine ⟨?_, c' * (0 : ℝ) ^ (c' - 1) * v, fun g => ?_⟩
    · simp [Tape.eval, e1, e2, FP.tpow, FP.pow, hpp, hp0, Real.zero_rpow hp0]
    · by_cases h1 : c' = 1
      · subst h1
        simp [Tape.back, e1, e2, FP.powBase, FP.pow, FP.mul, FP.powExponent, FP.ne0, FP.ge, hv, hw, FP.add]
      · have h1' : c' - 1 ≠ 0 := fun h => h1 (by linarith)
        simp [Tape.back, e1, e2, FP.powBase, FP.pow, FP.mul, FP.powExponent, FP.ne0, FP.ge, hv, hw, FP.add,
          hp0, hp, hpp, Real.zero_rpow h1']

theorem Tame.sel_quiet {P : ℝ → Prop} (ha : Quiet a x) (hb : Tame b x c) (hP : ¬ P x) :
    Tame (Tape.sel P a b) x c := by
  obtain ⟨hb, w, hw⟩ := hb
  refine ⟨by simp [Tape.eval, hP, hb], w, fun g => ?_⟩
  rw [Quiet] at ha
  simp [Tape.back, hP, ha, hw, FP.add]

/-! ## Two-body terms -/

namespace Pair

section
variable {env : Env} {d : Damping} {k : ℕ} {D : Tape} {V : DName → Tape} {R D0 : ℝ} {v0 : DName → ℝ}

theorem tame_dampV (hk : Even k) (hD : Tame D x D0) (hV : ∀ m, Tame (V m) x (v0 m)) (h0 : 0 < D0)
    (hok : DampAt d k v0 R) (hfl : d ≠ .rational → env.fl (D0 ^ k) = D0 ^ k) :
    Tame (damp env d k D R V) x (dampV env d k v0 D0 R) := by
  have hrs : Tame (rsN k V) x (if k = 6 then v0 .rs6 else v0 .rs8) := by
    unfold rsN; split <;> exact hV _
  have ha : Tame (alpN k V) x (if k = 8 then v0 .alp + 2 else v0 .alp) := by
    unfold alpN
    split
    · exact (hV _).add Tame.const
    · exact hV _
  have hpw : d ≠ .rational → Tame (Tape.pow env.fl D k) x (D0 ^ k) := fun hd =>
    (hD.pow (fl := env.fl) (p := k) (Or.inl h0)).congr (by rw [Real.rpow_natCast, hfl hd])
  unfold damp dampV
  cases d with
  | rational =>
    refine Tame.const.div (hD.npow.add (((hV _).mul Tame.const).add (hV _)).npow) ?_
    exact (add_pos_of_pos_of_nonneg (pow_pos h0 k) (hk.pow_nonneg _)).ne'
  | zero =>
    obtain ⟨h6, hR⟩ := hok
    have hp : 0 < (if k = 6 then v0 .rs6 else v0 .rs8) * env.sdiv D0 R := mul_pos h6 (sdiv_pos h0 hR)
    have ht := (hrs.mul (hD.sdiv_any (env := env) (Tame.const (c := R)))).tpow ha hp
    exact (Tame.const.div (Tame.const.add (Tame.const.mul ht)) (fden_pos hp).ne').sdiv_any (hpw (by simp))
  | mzero =>
    obtain ⟨h6, hb, hR⟩ := hok
    have hr : 0 < (if k = 6 then v0 .rs6 else v0 .rs8) * R := mul_pos h6 hR
    have hp : 0 < D0 / ((if k = 6 then v0 .rs6 else v0 .rs8) * R) + v0 .bet * R := by positivity
    have ht := ((hD.div (hrs.mul (Tame.const (c := R))) hr.ne').add
      ((hV .bet).mul (Tame.const (c := R)))).tpow ha.neg hp
    exact (Tame.const.div (Tame.const.add (Tame.const.mul ht)) (fden_pos hp).ne').sdiv_any (hpw (by simp))
  | op =>
    have hrad : 0 < v0 .a1 * √R + v0 .a2 := hok
    have hab := (((hV .a1).mul (Tame.const (c := √R))).add (hV .a2)).tpow (hV .bet) hrad
    have hrb := hD.tpow (hV .bet) h0
    have hpw := hpw (by simp)
    refine hrb.div ((hrb.mul hpw).add (hab.mul hpw)) ?_
    have := Real.rpow_pos_of_pos h0 (v0 .bet)
    have := Real.rpow_pos_of_pos hrad (v0 .bet)
    positivity

end

variable {env : Env} {n c : ℕ} {X : PairSys n c} {d : Damping} {cut x : ℝ}
  {C : Fin n → Fin n → ℝ → ℝ}

/-- Conditions for a finite gradient. -/
structure FinOk (env : Env) (X : PairSys n c) (C : Fin n → Fin n → ℝ → ℝ) (d : Damping) (x : ℝ) : Prop where
  c6 : ∀ i j, Tame (c6 X i j) x (C i j x)
  damp : ∀ i j, ok X i j → ∀ k, k = 6 ∨ k = 8 → zeroed X.isNone k = false →
    DampAt d k (parV X x) (radius X d i j)
  fl : d ≠ .rational → ∀ i j, ok X i j → ∀ k, k = 6 ∨ k = 8 →
    env.fl (distV env X i j x ^ k) = distV env X i j x ^ k
  ten : X.isNone .s10 = false → d = .rational
  par : ∀ m, Dead (Pair.par X m) x

theorem tame_damped (h : FinOk env X C d x) {k : ℕ}
    (hk : k = 6 ∨ k = 8 ∨ (k = 10 ∧ X.isNone .s10 = false)) (i j : Fin n) :
    Tame (damped env X d cut k i j) x (tV env X d cut k i j x) := by
  have hD := tame_distance (env := env) (X := X) (x := x) i j
  unfold damped
  by_cases hij : ok X i j
  · have hdamp : Tame (Pair.call env X.isNone d k (distance env X i j) (radius X d i j) (Pair.par X)) x
        (callV env X.isNone d k (parV X x) (distV env X i j x) (radius X d i j)) := by
      unfold call callV
      by_cases hz : zeroed X.isNone k = true
      · simp only [hz, if_true]
        exact Tame.const
      · simp only [hz]
        have hz : zeroed X.isNone k = false := by simpa using hz
        have h10 : k = 10 → d = .rational := fun h10 => h.ten (by
          rcases hk with rfl | rfl | ⟨-, h⟩
          · simp at h10
          · simp at h10
          · exact h)
        refine tame_dampV (v0 := parV X x) ?_ hD (fun m => Tame.input) (distV_pos i j x) ?_ fun hr => ?_
        · rcases hk with rfl | rfl | ⟨rfl, -⟩ <;> decide
        · rcases hk with hk | hk | ⟨hk, -⟩
          · exact h.damp i j hij k (Or.inl hk) hz
          · exact h.damp i j hij k (Or.inr hk) hz
          · rw [h10 hk]
            trivial
        · rcases hk with hk | hk | ⟨hk, -⟩
          · exact h.fl hr i j hij k (Or.inl hk)
          · exact h.fl hr i j hij k (Or.inr hk)
          · exact absurd (h10 hk) hr
    refine (Tame.sel (P := fun y => ok X i j ∧ ((distance env X i j).eval y).le cut) hdamp
      (Tame.const (c := 0))).congr ?_
    rw [hD.1]
    rfl
  · refine (Tame.sel_quiet (P := fun y => ok X i j ∧ ((distance env X i j).eval y).le cut)
      (dead_call (dead_distance hij) h.par).quiet (Tame.const (c := 0)) fun h => hij h.1).congr ?_
    rw [tV, if_neg fun h => hij h.1]

theorem tame_energy (h : FinOk env X C d x) (i : Fin n) :
    Tame (energy env X d cut i) x (enV env X C d cut i x) := by
  have hp : ∀ m, Tame (Pair.par X m) x (X.parFn m x) := fun m => Tame.input
  have he := ((hp .s6).mul (Tame.sum fun j => (h.c6 i j).mul
    (tame_damped (cut := cut) h (Or.inl rfl) i j))).add ((hp .s8).mul (Tame.sum fun j =>
    ((h.c6 i j).mul (Tame.const (c := 3 * X.Q i * X.Q j))).mul
      (tame_damped (cut := cut) h (Or.inr (Or.inl rfl)) i j)))
  unfold energy enV
  by_cases h10 : X.isNone .s10 = true
  · simp only [h10, if_true]
    exact Tame.const.mul he
  · have hf : X.isNone .s10 = false := by simpa using h10
    simp only [hf, Bool.false_eq_true, if_false]
    exact Tame.const.mul (he.add ((hp .s10).mul (Tame.sum fun j =>
      ((((h.c6 i j).mul (Tame.const (c := (3 * X.Q i * X.Q j) ^ 2))).mul
        (Tame.const (c := 49))).div (Tame.const (c := 40)) (by norm_num)).mul
        (tame_damped (cut := cut) h (Or.inr (Or.inr ⟨rfl, hf⟩)) i j))))

end Pair

/-! ## Terms -/

section
variable {G : GradCfg} {n : ℕ} {X : GradSys n} {rvdw : Fin n → Fin n → ℝ} {p : Param} {cutoff : Cutoff}
  {t : Term} {S : Spec.Settings}

/-- Conditions for a finite gradient of the energy of a term. -/
structure FinTerm (G : GradCfg) (X : GradSys n) (rvdw : Fin n → Fin n → ℝ) (p : Param) (x : ℝ)
    (t : Term) : Prop where
  weights : t.cls ≠ .d4ATMExact → ∀ i j, WOk G X x i j (qV X t.chargeDep i x)
  pow0 : t.cls = .d4ATMExact → ∀ i, PowOk G (G.wf (X.Z i) 0) (X.Z i) (X.cnFn i x)
  norm0 : t.cls = .d4ATMExact → ∀ i, NormOk G (G.wf (X.Z i) 0) (X.Z i) (X.cnFn i x)
  charge0 : t.cls = .d4ATMExact → ∀ i, ChargeOk G (X.Z i) (qV X t.chargeDep i x)
  fl : t.cls = .twoBody → t.damping ≠ .rational → ∀ i j, pairOk X i j → ∀ k, k = 6 ∨ k = 8 →
    G.env.fl (dV G X i j x ^ k) = dV G X i j x ^ k
  damping : t.cls = .twoBody → ∀ i j, pairOk X i j → t.damping.SmoothFor p (rvdw i j)
  op : t.cls = .twoBody → t.damping = .op → ∀ a1 a2, p.a1 = .val a1 → p.a2 = .val a2 → ∀ i j, pairOk X i j →
    0 < a1 * √(3 * X.Q i * X.Q j) + a2
  bj : t.cls = .d4ATMApprox ∨ t.cls = .d4ATMExact →
    RadOk (pairOk X) (radBJV G X fun _ => p) (fun _ => p.read3 .alp) x
  vdw : t.cls = .d3ATM → RadOk (pairOk X) (radVdWV rvdw fun _ => p) (fun _ => p.read3 .alp) x

theorem qIn_tame (ch : Bool) (i : Fin n) : Tame (qIn X ch i) x (qV X ch i x) := by
  unfold Tape.qIn qV
  cases ch with
  | true => exact Tame.input
  | false => exact Tame.const

theorem FinTerm.C (h : FinTerm G X rvdw p x t) (ht : t.cls ≠ .d4ATMExact) (i j : Fin n) :
    Tame (c6 G X (rc G) (qIn X t.chargeDep) i j) x
      (c6At G.env G.T G.R (dat X t.chargeDep i x) (dat X t.chargeDep j x)) :=
  Tame.c6 (d := fun i => qV X t.chargeDep i x) rfl (qIn_tame t.chargeDep) (h.weights ht i j) (h.weights ht j i)

theorem FinTerm.c9Approx (h : FinTerm G X rvdw p x t) (ht : t.cls ≠ .d4ATMExact) (i j k : Fin n) :
    Tame (Tape.c9Approx G X (rc G) t.chargeDep i j k) x (c9aV G X t.chargeDep i j k x) :=
  Tame.ssqrt (((h.C ht i j).mul (h.C ht i k)).mul (h.C ht j k)).abs

theorem FinTerm.pol (h : FinTerm G X rvdw p x t) (ht : t.cls = .d4ATMExact) (i : Fin n) (w : ℕ) :
    Tame (Tape.pol G X (alphaAt G.env G.T G.ga G.gc G.rq) t.chargeDep i w) x
      (polAt G.env G.T G.R (dat X t.chargeDep i x) w) := by
  unfold Tape.pol polAt polOf
  refine (Tame.sum fun r : Fin nref => (Tame.weight (Zp := 0) (c := X.cnFn i x) Tame.input
    (qIn_tame t.chargeDep i) r.2 (h.pow0 ht i) (h.norm0 ht i) (h.charge0 ht i)).mul
    (Tame.const (c := alphaAt G.env G.T G.ga G.gc G.rq (X.Z i) r w))).congr ?_
  rw [Finset.sum_range]
  rfl

theorem FinTerm.c9Exact (h : FinTerm G X rvdw p x t) (ht : t.cls = .d4ATMExact) (i j k : Fin n) :
    Tame (Tape.c9Exact G X (alphaAt G.env G.T G.ga G.gc G.rq) t.chargeDep i j k) x
      (c9At G.env G.T G.R (dat X t.chargeDep i x) (dat X t.chargeDep j x) (dat X t.chargeDep k x)) := by
  unfold Tape.c9Exact c9At
  refine (Tame.const.mul (Tame.sum fun w : Fin nfreq => ((((h.pol ht i w).mul (h.pol ht j w)).mul
    (h.pol ht k w)).mul (Tame.const (c := trapzWeights.getD w 0))))).congr ?_
  rw [Finset.sum_range]

section atm
variable {rad : Fin n → Fin n → Tape} {s9 alp : Tape} {ρ : Fin n → Fin n → ℝ → ℝ} {σ α : ℝ → ℝ}

theorem zero9_tame {P : Fin n → Fin n → Prop} {i j k : Fin n}
    (hrad : ∀ i j, Tame (rad i j) x (ρ i j x)) (halp : Tame alp x (α x)) (hr : RadOk P ρ α x)
    (hij : P i j) (hik : P i k) (hjk : P j k) :
    Tame (zero9 G X rad alp i j k) x (fOfV G X ρ α i j k x) := by
  have hrr : Tame (rr G X i j k) x (rrV G X i j k x) :=
    Tame.sel (P := fun _ => tripleOk X i j k) (Tame.r1 i j k) Tame.const
  have h3 := ((hrad i j).mul (hrad i k)).mul (hrad j k)
  have ht := (Tame.const (c := 1)).mul (Tame.sdiv (env := G.env) h3 hrr (rrV_pos i j k x).ne')
  have h0 : 0 < ρ i j x * ρ i k x * ρ j k x ∨ (ρ i j x * ρ i k x * ρ j k x = 0 ∧ 3 ≤ α x) := by
    rcases hr i j hij with h1 | ⟨h1, ha⟩
    · rcases hr i k hik with h2 | ⟨h2, ha⟩
      · rcases hr j k hjk with h3 | ⟨h3, ha⟩
        · exact Or.inl (mul_pos (mul_pos h1 h2) h3)
        · exact Or.inr ⟨by rw [h3, mul_zero], ha⟩
      · exact Or.inr ⟨by rw [h2, mul_zero, zero_mul], ha⟩
    · exact Or.inr ⟨by rw [h1, zero_mul, zero_mul], ha⟩
  have hp := ht.tpow_zero (halp.div (Tame.const (c := 3)) (by norm_num)) (by
    rcases h0 with h0 | ⟨h0, ha⟩
    · left
      rw [one_mul]
      exact div_pos h0 (rrV_pos i j k x)
    · exact Or.inr ⟨by rw [h0]; simp, by linarith⟩)
  have h0' : 0 ≤ ρ i j x * ρ i k x * ρ j k x := by
    rcases h0 with h0 | ⟨h0, -⟩
    · exact h0.le
    · exact h0.ge
  have hden : 0 < 1 + 6 * (1 * (ρ i j x * ρ i k x * ρ j k x / rrV G X i j k x)) ^ (α x / 3) := by
    have := Real.rpow_nonneg (mul_nonneg zero_le_one (div_nonneg h0' (rrV_pos (G := G) (X := X) i j k x).le))
      (α x / 3)
    positivity
  exact (Tame.const (c := 1)).div ((Tame.const (c := 1)).add ((Tame.const (c := 6)).mul hp)) hden.ne'

theorem atm_tame (hrad : ∀ i j, Tame (rad i j) x (ρ i j x)) (hdead : ∀ i j, Dead (rad i j) x)
    (halp : Tame alp x (α x)) (hdead' : Dead alp x) (hr : RadOk (pairOk X) ρ α x) (hs9 : Tame s9 x (σ x))
    {c9 : Fin n → Fin n → Fin n → Tape} {c : Fin n → Fin n → Fin n → ℝ → ℝ}
    (h9 : ∀ i j k, Tame (c9 i j k) x (c i j k x)) (i : Fin n) :
    Tame (atm G X rad s9 alp c9 i) x (atmV G X ρ σ α c i x) := by
  refine (Tame.sum fun j => Tame.sum fun k => ?_).div Tame.const (by norm_num)
  refine (((Tame.ang i j k).mul ?_).mul hs9).mul (h9 i j k)
  by_cases hok : tripleOk X i j k
  · obtain ⟨hi, hj, hk, hij, hik, hjk⟩ := hok
    exact Tame.sel (P := fun _ => tripleOk X i j k)
      (zero9_tame hrad halp hr ⟨hi, hj, hij⟩ ⟨hi, hk, hik⟩ ⟨hj, hk, hjk⟩) (Tame.const (c := 0))
  · refine (Tame.sel_quiet (P := fun _ => tripleOk X i j k) (zero9_dead hok
      (Tame.r1 (G := G) i j k).quiet hdead hdead').quiet (Tame.const (c := 0)) hok).congr ?_
    rw [if_neg hok]

end atm

/-- A term of the energy passes back a finite number. -/
theorem term_tame (h : FinTerm G X rvdw p x t) (hG : G.cut3 = cutoff.disp3)
    (hS : TermPar G.env G.T G.R p cutoff t S) (hu : t.Usable G.env G.R p cutoff) (i : Fin n) :
    Tame (term G X rvdw (fun _ => p) (fun _ => false) (rc G) (alphaAt G.env G.T G.ga G.gc G.rq) cutoff t i) x
      (t.energy S (molV X rvdw x) i) := by
  have three : t.cls ≠ .twoBody → ∀ (rad : Fin n → Fin n → Tape) (ρ : Fin n → Fin n → ℝ → ℝ)
      (Rr : Fin n → Fin n → ℝ), (∀ i j, Tame (rad i j) x (ρ i j x)) → (∀ i j, Dead (rad i j) x) →
      RadOk (pairOk X) ρ (fun _ => p.read3 .alp) x → (∀ i j, ρ i j x = Rr i j) →
      ∀ (c9 : Fin n → Fin n → Fin n → Tape) (c : Fin n → Fin n → Fin n → ℝ → ℝ),
      (∀ i j k, Tame (c9 i j k) x (c i j k x)) →
      Tame (atm G X rad (entry (fun _ => p) (fun _ => false) .s9)
        (entry (fun _ => p) (fun _ => false) .alp) c9 i) x
        (Spec.e3 S (molV X rvdw x) (fun i j k => c i j k x) Rr i) := by
    intro hc rad ρ Rr hf hd hr hR c9 c h1
    have hcut : 0 ≤ G.cut3 := by rw [hG]; exact hu.cut3 hc
    obtain ⟨⟨hs9, alp, ha, h9⟩, h10, h11⟩ := hS.three hc
    rw [hu.zero hc, point9_zero] at h9
    refine (atm_tame (σ := fun _ => p.read3 .s9) hf hd (entry_const .alp).tame Dead.frozen hr
      (entry_const .s9).tame h1 i).congr ?_
    exact atmV_eq hcut hS.ε i x (PVal.Is.num hs9).symm (h10.trans hG.symm)
      (by rw [show p.read3 .alp = alp from PVal.Is.num ha]; exact (Except.ok.inj h9).symm)
      (fun _ _ _ => rfl) hR
  have fbj : ∀ i j, Tame (radBJ G X (fun _ => p) (fun _ => false) i j) x (radBJV G X (fun _ => p) i j x) :=
    fun i j => ((entry_const .a1).mul Fine.const).tame.add (entry_const .a2).tame
  have dbj : ∀ i j, Dead (radBJ G X (fun _ => p) (fun _ => false) i j) x :=
    fun i j => (Dead.frozen.mul Dead.const).add Dead.frozen
  have hbj := fun hc i j =>
    radBJV_eq (rvdw := rvdw) (X := X) (P := fun _ => p) (S := fun _ => S) (fun _ => hS) hc i j x
  have hc9 := c9aV_eq (rvdw := rvdw) (X := X) hS
  unfold term termOf Term.energy
  cases hc : t.cls with
  | twoBody =>
    obtain ⟨h2, hcut⟩ := hS.two hc
    have hu2 := hu.two hc
    refine (Pair.tame_energy (C := fun i j y =>
      c6At G.env G.T G.R (dat X t.chargeDep i y) (dat X t.chargeDep j y)) ?_ i).congr ?_
    · refine ⟨h.C (by rw [hc]; simp), fun i j hij k hk hz => ?_, fun hr i j hij k hk => ?_,
        fun h10 => hu2.ten h10, fun m => Dead.frozen⟩
      · obtain ⟨f, hf⟩ : ∃ f, t.damping.point G.env k false p.kw = .ok f := by
          rcases hk with rfl | rfl
          · exact hu2.f6
          · exact hu2.f8
        refine dampAt_of_smooth (R := rvdw i j) hk hf hz (h.damping hc i j hij) (fun hr => ?_)
          fun ho a1 a2 h1 h2 => ?_
        · unfold Pair.radius
          rw [hr]
          rfl
        · rw [ho]
          exact h.op hc ho a1 a2 h1 h2 i j hij
      · have := h.fl hc hr i j hij k hk
        rw [show dV G X i j x = Pair.distV G.env (pairOf X rvdw (fun _ => p) (fun _ => false)
            (c6 G X (rc G) (qIn X t.chargeDep))) i j x by
          rw [pairOf_distV hij, dV, if_pos (show pairOk X i j from hij)]; rfl] at this
        exact this
    · refine pairOf_energy hS.ε x h2 hu2 rfl hcut i fun i j => ?_
      rw [hS.c6, dat_eq (rvdw := rvdw), dat_eq (rvdw := rvdw)]
  | d4ATMApprox =>
    refine (three (by rw [hc]; simp) _ _ _ fbj dbj (h.bj (Or.inl hc)) (hbj (Or.inl hc))
      _ _ (h.c9Approx (by rw [hc]; simp))).congr ?_
    rw [hc9 x]
  | d4ATMExact =>
    refine (three (by rw [hc]; simp) _ _ _ fbj dbj (h.bj (Or.inr hc)) (hbj (Or.inr hc))
      _ (fun i j k y => c9At G.env G.T G.R (dat X t.chargeDep i y) (dat X t.chargeDep j y)
        (dat X t.chargeDep k y)) (h.c9Exact hc)).congr ?_
    rw [(hS.exact hc).2]
    simp only [dat_eq (rvdw := rvdw)]
  | d3ATM =>
    refine (three (by rw [hc]; simp) _ _ _
      (fun i j => ((entry_const .rs9).mul (Fine.const (c := rvdw i j))).tame)
      (fun i j => Dead.frozen.mul Dead.const) (h.vdw hc)
      (fun i j => radVdWV_eq (X := X) (P := fun _ => p) (S := fun _ => S) (fun _ => hS) hc i j x)
      _ _ (h.c9Approx (by rw [hc]; simp))).congr ?_
    rw [hc9 x]

theorem total_tame {ts : List Term} {e : Term → Tape} {f : Term → ℝ}
    (h : ∀ t ∈ ts, Tame (e t) x (f t)) : Tame (total ts e) x (ts.map f).sum := by
  unfold total
  have key : ∀ (l : List Term) (s : Tape) (g : ℝ), (∀ t ∈ l, t ∈ ts) → Tame s x g →
      Tame (l.foldl (fun s t => add s (e t)) s) x (g + (l.map f).sum) := by
    intro l
    induction l with
    | nil => intro s g _ he; simpa using he
    | cons t l ih =>
      intro s g hl he
      have := ih _ _ (fun t ht => hl t (by simp [ht])) (he.add (h t (hl t (by simp))))
      simpa [add_assoc] using this
  simpa using key ts (const 0) 0 (fun _ h => h) Tame.const

theorem terms_tame {ts : List Term} {S : Term → Spec.Settings}
    (h : ∀ t ∈ ts, FinTerm G X rvdw p x t) (hG : G.cut3 = cutoff.disp3)
    (hS : ∀ t ∈ ts, TermPar G.env G.T G.R p cutoff t (S t))
    (hu : ∀ t ∈ ts, t.Usable G.env G.R p cutoff) (i : Fin n) :
    Tame (terms G X (rc G) (alphaAt G.env G.T G.ga G.gc G.rq) rvdw p cutoff ts i) x
      (ts.map fun t => t.energy (S t) (molV X rvdw x) i).sum :=
  total_tame fun t ht => term_tame (h t ht) hG (hS t ht) (hu t ht) i

end

end Tape

end TadDftd4
