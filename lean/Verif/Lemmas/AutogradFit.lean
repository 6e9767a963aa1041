import Verif.Lemmas.AutogradCharge
import Verif.Lemmas.AutogradDisp

/-!
# Backward pass to the entries of the parameter dictionary for any dispersion class
-/

set_option linter.unusedSimpArgs false

open scoped Classical Topology

namespace TadDftd4

open Tensor

section
variable {env : Env} {R : RefCfg} {p : Param} {cutoff : Cutoff} {t : Term} {m : DName}

theorem Param.put_put (p : Param) (m : DName) (v y : ℝ) : (p.put m v).put m y = p.put m y := by
  cases m <;> rfl

theorem Param.put_given (p : Param) (m : DName) (v : ℝ) : (p.put m v).isNone m = false := by
  simp [Param.isNone, Param.put_arg]

theorem Param.put_read3 (p : Param) (m m' : DName) (y : ℝ) :
    (p.put m y).read3 m' = if m' = m then y else p.read3 m' := by
  cases m <;> cases m' <;> simp [Param.put, Param.read3, PVal.num, Param.read, Param.arg, Param.kw, PVal.kw]

/-- A dictionary that can be used for a value of an entry can be used for all values. -/
theorem Term.Usable.put {v : ℝ} (h : t.Usable env R (p.put m v) cutoff) (y : ℝ) :
    t.Usable env R (p.put m y) cutoff := by
  have h2 := fun hc => (h.two hc).put (Param.put_given p m v) y
  simp only [Param.put_put] at h2
  refine ⟨h2, h.zero, fun hc => ?_, fun hc => ?_, h.cut3, fun hc => ?_, fun hc => ?_, fun hc => ?_, h.exact⟩
  · have := h.s9 hc; cases m <;> simp_all [Param.put]
  · have := h.alp hc; cases m <;> simp_all [Param.put]
  · have := h.a1 hc; cases m <;> simp_all [Param.put]
  · have := h.a2 hc; cases m <;> simp_all [Param.put]
  · have := h.rs9 hc; cases m <;> simp_all [Param.put]

end

namespace Tape

variable {G : GradCfg} {n : ℕ} {X : GradSys n} {x τ : ℝ} {p : Param} {m : DName} {rvdw : Fin n → Fin n → ℝ}
  {cutoff : Cutoff} {t : Term}

/-- Positions do not depend on the scalar. -/
structure Still (X : GradSys n) : Prop where
  pos : X.posGrad = false
  posC : ∀ i k y y', X.posFn i k y = X.posFn i k y'

namespace Still
variable (h : Still X)
include h

theorem noLeaf_pos (i : Fin n) (k : Fin 3) : (X.pos i k).NoLeaf := by
  simp [GradSys.pos, input, h.pos, NoLeaf]

theorem noLeaf_distance (i j : Fin n) : (distance G X i j).NoLeaf := by
  unfold distance cdist Tape.ssqrt
  simp [NoLeaf, h.noLeaf_pos]

theorem noLeaf_r2 (i j k : Fin n) : (r2 G X i j k).NoLeaf := by
  unfold r2 dist2
  simp [NoLeaf, h.noLeaf_distance]

theorem noLeaf_r1 (i j k : Fin n) : (r1 G X i j k).NoLeaf := by
  unfold r1
  simp [NoLeaf, h.noLeaf_r2]

theorem noLeaf_r3 (i j k : Fin n) : (r3 G X i j k).NoLeaf := by
  unfold r3 r1
  simp [NoLeaf, h.noLeaf_r2]

theorem noLeaf_ang (i j k : Fin n) : (ang G X i j k).NoLeaf := by
  unfold ang angle r5 dist2
  simp [NoLeaf, h.noLeaf_distance, h.noLeaf_r2, h.noLeaf_r3]

theorem dV_const (y y' : ℝ) (i j : Fin n) : dV G X i j y = dV G X i j y' := by
  have : (X.mol y).pos = (X.mol y').pos := by
    funext i
    ext k
    exact h.posC i k y y'
  unfold dV Spec.Mol.r
  rw [this]

theorem r2V_const (y y' : ℝ) (i j k : Fin n) : r2V G X i j k y = r2V G X i j k y' := by
  unfold r2V
  rw [h.dV_const y y', h.dV_const y y', h.dV_const y y']

theorem angV_const (y y' : ℝ) (i j k : Fin n) : angV G X i j k y = angV G X i j k y' := by
  unfold angV angC r5V r3V sV
  simp only [h.dV_const y y', h.r2V_const y y']

theorem r1 (i j k : Fin n) : Fine (Tape.r1 G X i j k) (fun y => √(r2V G X i j k y)) x :=
  (Fine.of_noLeaf (c := √(r2V G X i j k x)) (h.noLeaf_r1 i j k) fun y => by
    rw [(Tame.r1 i j k).1, h.r2V_const y x]).congr' fun y => by rw [h.r2V_const y x]

theorem ang (i j k : Fin n) : Fine (Tape.ang G X i j k) (angV G X i j k) x :=
  (Fine.of_noLeaf (c := angV G X i j k x) (h.noLeaf_ang i j k) fun y => by
    rw [(Tame.ang i j k).1, h.angV_const y x]).congr' fun y => by rw [h.angV_const y x]

end Still

theorem entry_put (m' : DName) : Fine (entry (fun y => p.put m y) (fun m' => decide (m' = m)) m')
    (fun y => (p.put m y).read3 m') x := by
  by_cases h : m' = m
  · refine Fine.input ?_ fun h0 => by simp [h] at h0
    simp only [Param.put_read3, h, if_true]
    exact differentiableAt_id
  · refine Fine.input ?_ fun _ => ⟨p.read3 m', ?_⟩
    · simp only [Param.put_read3, h, if_false]
      exact differentiableAt_const _
    · funext y
      simp only [Param.put_read3, h, if_false]

/-- Conditions for the gradient of the energy of a term with respect to a parameter to be the derivative. -/
structure FitTerm (G : GradCfg) (X : GradSys n) (rvdw : Fin n → Fin n → ℝ) (p : Param) (m : DName) (τ x : ℝ)
    (t : Term) : Prop where
  still : Still X
  damping : t.cls = .twoBody → ∀ i j, t.damping.SmoothFor (p.put m x) (rvdw i j)
  op : t.cls = .twoBody → t.damping = .op → ∀ a1 a2, (p.put m x).a1 = .val a1 → (p.put m x).a2 = .val a2 →
    ∀ i j, 0 < a1 * √(3 * X.Q i * X.Q j) + a2
  fl : ∀ z, τ ≤ z → G.env.fl z = z
  large : t.cls = .twoBody → t.damping ≠ .rational → ∀ i j, pairOk X i j → ∀ k ∈ [5, 6, 7, 8],
    τ < dV G X i j x ^ k
  under : t.cls = .twoBody → t.damping = .op → 0 < G.env.fl (G.env.eps ^ 6) ∧ 0 < G.env.fl (G.env.eps ^ 8)
  bj : t.cls = .d4ATMApprox ∨ t.cls = .d4ATMExact → ∀ i j, 0 < radBJV G X (fun y => p.put m y) i j x
  vdw : t.cls = .d3ATM → ∀ i j, 0 < radVdWV rvdw (fun y => p.put m y) i j x ∨
    (rvdw i j = 0 ∧ 3 ≤ (p.put m x).read3 .alp)

theorem pairPut_ok (h : FitTerm G X rvdw p m τ x t) (ht : t.cls = .twoBody)
    (hu : t.damping.Usable G.env (p.put m x)) {c : Fin n → Fin n → ℝ} {cut : ℝ} :
    Pair.Ok G.env (pairOf X rvdw (fun y => p.put m y) (fun m' => decide (m' = m))
      (fun i j => Tape.const (c i j))) (fun i j _ => c i j) t.damping cut τ x := by
  obtain ⟨Y, hY⟩ : ∃ Y, Y = pairOf X rvdw (fun y => p.put m y) (fun m' => decide (m' = m))
    (fun i j => Tape.const (c i j)) := ⟨_, rfl⟩
  have hin : Y.isNone = (p.put m x).isNone := by
    have := Param.put_isNone (Param.put_given p m x) 0
    rw [Param.put_put] at this
    rw [hY]
    exact this
  have hpv : Pair.parV Y x = (p.put m x).read := by rw [hY]; rfl
  have hd : ∀ {i j : Fin n}, Pair.ok Y i j → ∀ y, Pair.distV G.env Y i j y = dV G X i j x := by
    intro i j hij y
    rw [hY] at hij ⊢
    rw [pairOf_distV hij, h.still.dV_const x y, dV, if_pos (show pairOk X i j from hij)]
    rfl
  have hrad : ∀ i j : Fin n, ∀ k, k = 6 ∨ k = 8 → Pair.zeroed Y.isNone k = false →
      Pair.DampAt t.damping k (Pair.parV Y x) (Pair.radius Y t.damping i j) := by
    intro i j k hk hz
    obtain ⟨f, hf⟩ : ∃ f, t.damping.point G.env k false (p.put m x).kw = .ok f := by
      rcases hk with rfl | rfl
      · exact hu.f6
      · exact hu.f8
    rw [hin] at hz
    rw [hpv]
    refine dampAt_of_smooth (R := rvdw i j) hk hf hz (h.damping ht i j) (fun hr => ?_) fun ho a1 a2 h1 h2 => ?_
    · unfold Pair.radius
      rw [hr, hY]
      rfl
    · have := h.op ht ho a1 a2 h1 h2 i j
      rw [ho, hY]
      exact this
  rw [← hY]
  exact
  { par := fun m' => by
      rw [hY]
      by_cases hm : m' = m
      · refine Fine.input ?_ fun h0 => by simp [pairOf, hm] at h0
        simp only [pairOf, Param.put_read, hm, Function.update_self]
        exact differentiableAt_id
      · refine Fine.input ?_ fun _ => ⟨p.read m', ?_⟩
        · simp only [pairOf, Param.put_read, Function.update_of_ne hm]
          exact differentiableAt_const _
        · funext y
          simp only [pairOf, Param.put_read, Function.update_of_ne hm]
    c6 := fun i j => by rw [hY]; exact Fine.const
    dist := fun i j _ => Pair.fine_distance_const (by rw [hY]; exact h.still.pos)
      (fun i k y => by rw [hY]; exact h.still.posC i k y x) i j
    damp := fun i j _ k hk hz => hrad i j k hk hz
    cut := fun i j hij => by
      simp only [hd hij]
      by_cases hc : dV G X i j x ≤ cut
      · exact Or.inl (.of_forall fun _ => hc)
      · exact Or.inr (.of_forall fun _ => hc)
    fl := h.fl
    large := fun hr i j hij k hk => by
      rw [hd hij]
      rw [hY] at hij
      exact h.large ht hr i j hij k hk
    ten := fun h0 => hu.ten (by rw [← hin]; exact h0)
    quiet := fun i j hij k hk => by
      have hD : Tame (Pair.distance G.env Y i j) x G.env.eps :=
        (Pair.tame_distance i j).congr (by rw [Pair.distV, if_neg hij])
      refine Pair.quiet_call fun hz0 => ?_
      have hat : Pair.DampAt t.damping k (Pair.parV Y x) (Pair.radius Y t.damping i j) := by
        rcases hk with hk | hk | ⟨-, h10⟩
        · exact hrad i j k (Or.inl hk) hz0
        · exact hrad i j k (Or.inr hk) hz0
        · rw [hin] at h10
          rw [hu.ten h10]
          trivial
      obtain ⟨z, hz⟩ := Pair.tame_damp (env := G.env) (d := t.damping) (k := k) (V := Pair.par Y)
        (v0 := Pair.parV Y x) (by rcases hk with rfl | rfl | ⟨rfl, -⟩ <;> decide) hD
        (fun m' => Tame.input) G.env.eps_pos hat fun h0 => by
          rw [Real.rpow_natCast]
          rcases hk with rfl | rfl | ⟨-, h10⟩
          · exact (h.under ht h0).1
          · exact (h.under ht h0).2
          · rw [hin] at h10
            rw [h0] at hu
            cases hu.ten h10
      exact hz.quiet }

/-- The backward pass through a term to entry `m` of the dictionary. -/
theorem termPut_fine (h : FitTerm G X rvdw p m τ x t) (hG : G.cut3 = cutoff.disp3) {S : ℝ → Spec.Settings}
    (hS : ∀ y, TermPar G.env G.T G.R (p.put m y) cutoff t (S y))
    (hu : ∀ y, t.Usable G.env G.R (p.put m y) cutoff) {A : Fin n → Spec.AtomData}
    (hA : ∀ y, (molV X rvdw y).data t.chargeDep = A) (i : Fin n) :
    Fine (termOf G X rvdw (fun y => p.put m y) (fun m' => decide (m' = m))
        (fun i j => Tape.const (c6At G.env G.T G.R (A i) (A j)))
        (fun i j k => Tape.const (G.env.ssqrt |c6At G.env G.T G.R (A i) (A j) *
          c6At G.env G.T G.R (A i) (A k) * c6At G.env G.T G.R (A j) (A k)|))
        (fun i j k => Tape.const (c9At G.env G.T G.R (A i) (A j) (A k))) cutoff t i)
      (fun y => t.energy (S y) (molV X rvdw y) i) x := by
  have three : t.cls ≠ .twoBody → ∀ (rad : Fin n → Fin n → Tape) (ρ : Fin n → Fin n → ℝ → ℝ)
      (Rr : ℝ → Fin n → Fin n → ℝ), (∀ i j, Fine (rad i j) (ρ i j) x) →
      RadOk (fun _ _ => True) ρ (fun y => (p.put m y).read3 .alp) x → (∀ i j y, ρ i j y = Rr y i j) →
      ∀ c : Fin n → Fin n → Fin n → ℝ,
      Fine (atm G X rad (entry (fun y => p.put m y) (fun m' => decide (m' = m)) .s9)
          (entry (fun y => p.put m y) (fun m' => decide (m' = m)) .alp) (fun i j k => Tape.const (c i j k)) i)
        (fun y => Spec.e3 (S y) (molV X rvdw y) c (Rr y) i) x := by
    intro hc rad ρ Rr hf hr hR c
    have h0 := fun i j k => zero9_fine (h.still.r1 (G := G) i j k) hf (entry_put .alp) hr trivial trivial trivial
    exact atm_term (P := fun y => p.put m y) (S := S) (c := fun i j k _ => c i j k) hc ((hu 0).zero hc) hG hS
      h.still.ang (fun i j k _ => h0 i j k) (fun i j k _ => (h0 i j k).tame.quiet) (entry_put .s9)
      (fun _ _ _ _ => Fine.const) (fun i j k => ⟨_, Tame.const⟩) (fun i j k => .of_forall fun y => ⟨_, rfl⟩)
      hR i
  have fbj : ∀ i j, Fine (radBJ G X (fun y => p.put m y) (fun m' => decide (m' = m)) i j)
      (radBJV G X (fun y => p.put m y) i j) x :=
    fun i j => ((entry_put .a1).mul Fine.const).add (entry_put .a2)
  have hbj := fun hc => radBJV_eq (rvdw := rvdw) (X := X) hS hc
  have hc9 : ∀ y, Spec.c9 (S y) ((molV X rvdw y).data t.chargeDep) = fun i j k =>
      G.env.ssqrt |c6At G.env G.T G.R (A i) (A j) * c6At G.env G.T G.R (A i) (A k) *
        c6At G.env G.T G.R (A j) (A k)| := by
    intro y
    funext i j k
    unfold Spec.c9
    rw [(hS y).c6, (hS y).ε, hA]
    rfl
  unfold termOf Term.energy
  cases hc : t.cls with
  | twoBody =>
    refine (Pair.fine_energy (pairPut_ok h hc ((hu x).two hc)) i).congr' fun y => ?_
    obtain ⟨h2, hcut⟩ := (hS y).two hc
    refine pairOf_energy (hS y).ε y h2 ((hu y).two hc) ?_ hcut i fun i j => ?_
    · have := Param.put_isNone (Param.put_given p m y) 0
      rw [Param.put_put] at this
      exact this
    · rw [(hS y).c6, hA]
  | d4ATMApprox =>
    refine (three (by rw [hc]; simp) _ _ _ fbj (fun i j _ => Or.inl (h.bj (Or.inl hc) i j)) (hbj (Or.inl hc))
      _).congr' fun y => ?_
    simp only [hc9 y]
  | d4ATMExact =>
    refine (three (by rw [hc]; simp) _ _ _ fbj (fun i j _ => Or.inl (h.bj (Or.inr hc) i j)) (hbj (Or.inr hc))
      _).congr' fun y => ?_
    simp only [((hS y).exact hc).2, hA]
  | d3ATM =>
    refine (three (by rw [hc]; simp) _ (radVdWV rvdw fun y => p.put m y) _
      (fun i j => (entry_put .rs9).mul (Fine.const (c := rvdw i j)))
      (fun i j _ => (h.vdw hc i j).imp_right fun h => ⟨fun y => by rw [radVdWV, h.1, mul_zero], h.2⟩)
      (radVdWV_eq (X := X) hS hc) _).congr' fun y => ?_
    simp only [hc9 y]

/-! ## NaN -/

section
variable {rad : Fin n → Fin n → Tape} {alp : Tape} {ρ : Fin n → Fin n → ℝ} {α : ℝ}

/-- A radius of zero and an exponent below three: NaN for a masked triple, although nothing arrives. -/
theorem zero9_nan {i j k : Fin n} (ht : ¬ tripleOk X i j k) (hrad : ∀ i j, (rad i j).eval x = .fin (ρ i j))
    (halp : alp.eval x = .fin α) (h0 : ρ i j = 0) (h1 : 0 < α) (h3 : α < 3)
    (hb : (rad i j).back x .nan = .nan) : (zero9 G X rad alp i j k).back x (.fin 0) = .nan := by
  have hrr : (rr G X i j k).eval x = .fin 1 := by simp [rr, Tape.eval, ht]
  have hr0 : (Tape.mul (Tape.mul (rad i j) (rad i k)) (rad j k)).eval x = .fin 0 := by
    simp [Tape.eval, hrad, FP.mul, h0]
  have e1 : (Tape.mul (Tape.const 1) (Tape.sdiv G.env (Tape.mul (Tape.mul (rad i j) (rad i k)) (rad j k))
      (rr G X i j k))).eval x = .fin 0 := by
    simp only [Tape.sdiv, Tape.eval] at hr0 ⊢
    rw [hr0]
    simp [hrr, FP.ne0, FP.div, FP.mul]
  have e2 : (Tape.div alp (Tape.const 3)).eval x = .fin (α / 3) := by
    simp [Tape.eval, halp, FP.div]
  have b1 : (Tape.mul (Tape.const 1) (Tape.sdiv G.env (Tape.mul (Tape.mul (rad i j) (rad i k)) (rad j k))
      (rr G X i j k))).back x .nan = .nan := by
    simp [Tape.sdiv, Tape.back, hb]
  have hα : α / 3 ≠ 0 := by positivity
  have hlt : ¬ (0 ≤ α / 3 - 1) := by linarith
  have hpb : FP.powBase (.fin 0) (.fin 0) (.fin (α / 3)) = .nan := by
    have : 0 < α / 3 := by positivity
    simp [FP.powBase, hα, FP.pow, hlt, FP.mul, this, this.le]
    try grind
  unfold zero9
  dsimp only
  have e3 : (Tape.tpow (Tape.mul (Tape.const 1) (Tape.sdiv G.env (Tape.mul (Tape.mul (rad i j) (rad i k)) (rad j k))
      (rr G X i j k))) (Tape.div alp (Tape.const 3))).eval x = .fin 0 := by
    rw [Tape.eval, e1, e2]
    simp [FP.tpow, FP.pow, hα, h1.le, (by positivity : 0 ≤ α / 3)]
  have b2 : (Tape.tpow (Tape.mul (Tape.const 1) (Tape.sdiv G.env (Tape.mul (Tape.mul (rad i j) (rad i k)) (rad j k))
      (rr G X i j k))) (Tape.div alp (Tape.const 3))).back x (.fin 0) = .nan := by
    rw [Tape.back, e1, e2, hpb, b1]
    simp
  generalize Tape.tpow _ _ = P at e3 b2 ⊢
  simp [Tape.back, Tape.eval, e3, FP.mul, FP.add, FP.div, FP.neg, b2]

/-- The gradient of the three-body energy of atom `i` is NaN if a masked triple is. -/
theorem atm_nan {s9 : Tape} {c9 : Fin n → Fin n → Fin n → Tape} {i j k : Fin n} (ht : ¬ tripleOk X i j k)
    (h : (zero9 G X rad alp i j k).back x (.fin 0) = .nan) : Bad (atm G X rad s9 alp c9 i) x := by
  have hf : Bad (fdampOf G X rad alp i j k) x := fun g => by
    simp [fdampOf, Tape.back, ht, h]
  exact (Bad.sum j (Bad.sum k hf.mul_right.mul_left.mul_left)).div_left

end

end Tape

end TadDftd4
