import Verif.Lemmas.AutogradNaN

/-!
# Gradients with respect to a charge

The graph of the energy if the parameter is the charge of one atom: coordination numbers, positions
and the other charges are frozen. Parts of the graph without a leaf contribute nothing, even where a
gradient with respect to their inputs would be NaN.
-/

set_option linter.unusedSimpArgs false

open scoped Classical Topology

namespace TadDftd4

namespace Tape

/-- The parameter does not occur. -/
def NoLeaf : Tape → Prop
  | leaf _ _ _ _ => False
  | frozen _ => True
  | const _ => True
  | neg a => a.NoLeaf
  | add a b => a.NoLeaf ∧ b.NoLeaf
  | sub a b => a.NoLeaf ∧ b.NoLeaf
  | mul a b => a.NoLeaf ∧ b.NoLeaf
  | div a b => a.NoLeaf ∧ b.NoLeaf
  | exp _ a => a.NoLeaf
  | expo _ a => a.NoLeaf
  | pow _ a _ => a.NoLeaf
  | npow a _ => a.NoLeaf
  | sqrt a => a.NoLeaf
  | abs a => a.NoLeaf
  | sgn a => a.NoLeaf
  | log a => a.NoLeaf
  | clampMin a _ => a.NoLeaf
  | sel _ a b => a.NoLeaf ∧ b.NoLeaf
  | sum _ f => ∀ i, (f i).NoLeaf
  | tpow a b => a.NoLeaf ∧ b.NoLeaf

theorem sum_zero {m : ℕ} : FP.sum (List.ofFn fun _ : Fin m => FP.fin 0) = .fin 0 := by
  induction m with
  | zero => rfl
  | succ m ih =>
    rw [List.ofFn_succ]
    show (FP.fin 0).add (FP.sum _) = _
    rw [ih]
    simp [FP.add]

theorem NoLeaf.back {e : Tape} (h : e.NoLeaf) (x : ℝ) (g : FP) : e.back x g = .fin 0 := by
  induction e generalizing g with
  | leaf => exact h.elim
  | frozen => rfl
  | const => rfl
  | neg a ha => exact ha h _
  | add a b ha hb => rw [Tape.back, ha h.1, hb h.2]; simp [FP.add]
  | sub a b ha hb => rw [Tape.back, ha h.1, hb h.2]; simp [FP.add]
  | mul a b ha hb => rw [Tape.back, ha h.1, hb h.2]; simp [FP.add]
  | div a b ha hb => rw [Tape.back, ha h.1, hb h.2]; simp [FP.add]
  | exp fl a ha => exact ha h _
  | expo fl a ha => exact ha h _
  | pow fl a p ha => exact ha h _
  | npow a k ha => exact ha h _
  | sqrt a ha => exact ha h _
  | abs a ha => exact ha h _
  | sgn a ha => exact ha h _
  | log a ha => exact ha h _
  | clampMin a c ha => exact ha h _
  | sel c a b ha hb => rw [Tape.back, ha h.1, hb h.2]; simp [FP.add]
  | sum n f hf =>
    rw [Tape.back]
    simp only [fun i g => hf i (h i) g]
    exact sum_zero
  | tpow a b ha hb => rw [Tape.back, ha h.1, hb h.2]; simp [FP.add]

theorem Fine.of_noLeaf {e : Tape} {c x : ℝ} (h : e.NoLeaf) (he : ∀ y, e.eval y = .fin c) :
    Fine e (fun _ => c) x :=
  ⟨.of_forall he, 0, hasDerivAt_const _ _, fun g => by rw [h.back, mul_zero]⟩

variable {G : GradCfg} {n : ℕ} {X : GradSys n} {w x c : ℝ} {Z r : ℕ} {cn q : Tape} {a : Fin n}

/-! ## Parts without the parameter -/

theorem NoLeaf.tmp (h : cn.NoLeaf) : (tmp G w Z r cn).NoLeaf := by
  unfold Tape.tmp
  cases G.kind <;> simp [NoLeaf, h]

theorem NoLeaf.powT (h : cn.NoLeaf) (i : ℕ) : (powT G w Z r cn i).NoLeaf := by
  unfold Tape.powT
  cases G.kind <;> exact NoLeaf.tmp h

theorem NoLeaf.expw (h : cn.NoLeaf) : (expw G w Z r cn).NoLeaf := by
  unfold Tape.expw
  simp [NoLeaf, NoLeaf.tmp h, NoLeaf.powT h]

theorem NoLeaf.gw (h : cn.NoLeaf) : (gw G w Z r cn).NoLeaf := by
  unfold Tape.gw Tape.gwTemp Tape.norm
  simp [NoLeaf, NoLeaf.expw h]

theorem NoLeaf.zeta {gam qref : ℝ} (h : q.NoLeaf) : (zeta G gam qref q).NoLeaf := by
  unfold Tape.zeta
  simp [NoLeaf, h]

theorem NoLeaf.weight (h : cn.NoLeaf) (hq : q.NoLeaf) : (weight G w Z r cn q).NoLeaf := by
  have h1 : (Tape.add q (const (G.T.zeff Z))).NoLeaf := ⟨hq, trivial⟩
  exact ⟨⟨NoLeaf.zeta h1, trivial⟩, NoLeaf.gw h⟩

theorem NoLeaf.ssqrt {env : Env} {e : Tape} (h : e.NoLeaf) : (ssqrt env e).NoLeaf := h

/-- The parameter is the charge of atom `a`. -/
structure OnlyCharge (X : GradSys n) (a : Fin n) : Prop where
  pos : X.posGrad = false
  cn : X.cnGrad = false
  q : ∀ i ≠ a, X.qGrad i = false
  posC : ∀ i k y y', X.posFn i k y = X.posFn i k y'
  cnC : ∀ i y y', X.cnFn i y = X.cnFn i y'
  qC : ∀ i ≠ a, ∀ y y', X.qFn i y = X.qFn i y'
  qa : ∀ y, X.qFn a y = y

namespace OnlyCharge
variable (h : OnlyCharge X a)
include h

theorem noLeaf_pos (i : Fin n) (k : Fin 3) : (X.pos i k).NoLeaf := by
  simp [GradSys.pos, input, h.pos, NoLeaf]

theorem noLeaf_cn (i : Fin n) : (X.cn i).NoLeaf := by
  simp [GradSys.cn, input, h.cn, NoLeaf]

theorem noLeaf_q {i : Fin n} (hi : i ≠ a) : (X.q i).NoLeaf := by
  simp [GradSys.q, input, h.q i hi, NoLeaf]

theorem noLeaf_distance (i j : Fin n) : (distance G X i j).NoLeaf := by
  unfold distance cdist Tape.ssqrt
  simp [NoLeaf, h.noLeaf_pos]

theorem noLeaf_damped (k : ℕ) (i j : Fin n) : (damped G X k i j).NoLeaf := by
  unfold damped rational
  simp [NoLeaf, h.noLeaf_distance]

theorem noLeaf_r2 (i j k : Fin n) : (r2 G X i j k).NoLeaf := by
  unfold r2 dist2
  simp [NoLeaf, h.noLeaf_distance]

theorem noLeaf_r3 (i j k : Fin n) : (r3 G X i j k).NoLeaf := by
  unfold r3 r1
  simp [NoLeaf, h.noLeaf_r2]

theorem noLeaf_threeBody (rc : ℕ → ℕ → ℕ → ℕ → ℝ) (i : Fin n) : (threeBody G X rc i).NoLeaf := by
  unfold threeBody ang angle fdamp sdiv r5 r1 dist2 c9 Tape.ssqrt c6
  simp only [NoLeaf, h.noLeaf_distance, h.noLeaf_r2, h.noLeaf_r3, and_self, and_true, true_and,
    forall_const, implies_true]
  have h0 : (const 0).NoLeaf := trivial
  simp [NoLeaf.weight (h.noLeaf_cn _) h0]

theorem mol_pos (y y' : ℝ) (i j : Fin n) : (X.mol y).r G.env.eps i j = (X.mol y').r G.env.eps i j := by
  have : (X.mol y).pos = (X.mol y').pos := by
    funext i
    ext k
    exact h.posC i k y y'
  unfold Spec.Mol.r
  rw [this]

theorem dV_const (y y' : ℝ) (i j : Fin n) : dV G X i j y = dV G X i j y' := by
  unfold dV
  rw [h.mol_pos y y']

end OnlyCharge

/-! ## Values -/

/-- `gwOf` is a number. -/
theorem gwOf_fin {env : Env} {T : Tables} {Z : ℕ} {E : ℕ → ℝ} (hE : ∀ r, 0 ≤ E r) (r : ℕ) :
    gwOf env T Z E r = .fin (gwOf env T Z E r).toReal := by
  unfold gwOf
  split_ifs with h1 h2
  · rfl
  · rfl
  · cases hg : gwTempOf T Z E r with
    | fin v => rfl
    | nan => exact absurd trivial (by rw [hg] at h1; exact h1)
    | pinf => exact absurd trivial (by rw [hg] at h1; exact h1)
    | ninf =>
      unfold gwTempOf FP.div at hg
      dsimp only at hg
      split_ifs at hg <;> exact absurd (hE r) (not_le.2 (by assumption))

/-- The value of `gw`, also if all Gaussians have underflown. -/
theorem eval_gw (hc : Tame cn x c) (hr : r < nref) (h1 : PowOk G w Z c) : (gw G w Z r cn).eval x =
    .fin (gwOf G.env G.T Z (expwSel G.env G.T G.kind w Z c) r).toReal := by
  have ht : (gwTemp G w Z r cn).eval x = gwTempOf G.T Z (expwSel G.env G.T G.kind w Z c) r := by
    unfold gwTemp gwTempOf
    rw [eval, (Tame.expw hc hr h1).1, (Tame.norm hc h1).1]
    rfl
  rw [← gwOf_fin fun r => expwSel_nonneg]
  unfold gw gwOf
  simp only [eval, ht]

/-- The value of `zeta` is not affected by overflow. -/
structure ZetaOk (G : GradCfg) (gam qref c : ℝ) : Prop where
  ne : c ≠ G.env.eps
  le : 0 < c → Real.exp (gam * (1 - qref / (c - G.env.eps))) ≤ G.env.fmax

theorem eval_zeta {gam qref : ℝ} (hq : q.eval x = .fin c) (h : ZetaOk G gam qref c) :
    (zeta G gam qref q).eval x = .fin (zetaF G.env.eps G.ga gam qref c).toReal := by
  have hne : c - G.env.eps ≠ 0 := sub_ne_zero.2 h.ne
  rw [zetaF_fin hne]
  unfold zeta
  simp only [eval, hq, FP.sub, FP.neg, FP.add, FP.div, FP.mul, FP.gt, ← sub_eq_add_neg, hne, ne_eq,
    not_false_eq_true, if_true]
  by_cases h0 : 0 < c
  · rw [if_pos h0, if_pos h0]
    simp only [FP.oexp, h.le h0, if_true, FP.sub, FP.neg, FP.add, FP.mul, FP.flexp, id, FP.toReal,
      ← sub_eq_add_neg]
  · rw [if_neg h0, if_neg h0]
    rfl

/-- The weights of an atom with charge `q` have the values of the forward calculation. -/
def EvOk (G : GradCfg) (Z : ℕ) (q : ℝ) : Prop := ∀ r < nref, 0 < G.T.refc Z r →
  ZetaOk G (G.T.gam Z * G.gc) (refqAt G.T G.rq Z r + G.T.zeff Z) (q + G.T.zeff Z)

theorem ChargeOk.evOk {q : ℝ} (h : ChargeOk G Z q) : EvOk G Z q := fun r hr _ =>
  ⟨h.ne, fun _ => h.le r hr⟩

theorem eval_weight {Zp : ℕ} {d : ℝ} (hc : Tame cn x c) (hq : q.eval x = .fin d) (hr : r < nref)
    (h1 : PowOk G (G.wf Z Zp) Z c) (h2 : EvOk G Z d) :
    (weight G (G.wf Z Zp) Z r cn q).eval x = .fin (wtAt G.env G.T G.R ⟨Z, c, d⟩ Zp r) := by
  have hz : (Tape.sel (fun _ => 0 < G.T.refc Z r) (zeta G (G.T.gam Z * G.gc)
      (refq G Z r + G.T.zeff Z) (add q (const (G.T.zeff Z)))) (const 0)).eval x =
      .fin (zetaAt G.env G.T G.ga G.gc G.rq Z d r) := by
    unfold zetaAt
    rw [eval]
    by_cases hm : 0 < G.T.refc Z r
    · rw [if_pos hm, if_pos hm]
      exact eval_zeta (by rw [eval, hq]; rfl) (h2 r hr hm)
    · rw [if_neg hm, if_neg hm]
      rfl
  unfold weight
  rw [eval, hz, eval_gw hc hr h1]
  rfl

theorem eval_mul (a b : Tape) : (mul a b).eval x = (a.eval x).mul (b.eval x) := rfl

theorem eval_sum {m : ℕ} {f : Fin m → Tape} {v : Fin m → ℝ} (h : ∀ i, (f i).eval x = .fin (v i)) :
    (Tape.sum m f).eval x = .fin (∑ i, v i) := by
  rw [eval]
  simp only [h]
  exact FP.sum_fin v

theorem eval_c6 {Q : Fin n → Tape} {d : Fin n → ℝ} {i j : Fin n} (hq : ∀ i, (Q i).eval x = .fin (d i))
    (h1 : ∀ i j, PowOk G (G.wf (X.Z i) (X.Z j)) (X.Z i) (X.cnFn i x))
    (hi : EvOk G (X.Z i) (d i)) (hj : EvOk G (X.Z j) (d j)) :
    (c6 G X (rc G) Q i j).eval x = .fin (c6At G.env G.T G.R ⟨X.Z i, X.cnFn i x, d i⟩
      ⟨X.Z j, X.cnFn j x, d j⟩) := by
  unfold c6 c6At c6Of
  refine (eval_sum (v := fun a : Fin nref => ∑ b : Fin nref, rc G (X.Z i) (X.Z j) a b *
    (wtAt G.env G.T G.R ⟨X.Z i, X.cnFn i x, d i⟩ (X.Z j) a *
      wtAt G.env G.T G.R ⟨X.Z j, X.cnFn j x, d j⟩ (X.Z i) b)) fun a => eval_sum fun b => ?_).trans ?_
  · have hc : ∀ i, Tame (X.cn i) x (X.cnFn i x) := fun i => Tame.input
    have w1 := eval_weight (hc i) (hq i) a.2 (h1 i j) hi
    have w2 := eval_weight (hc j) (hq j) b.2 (h1 j i) hj
    rw [eval_mul, eval_mul, w1, w2]
    rfl
  · simp only [Finset.sum_range]
    rfl

theorem eval_threeBody (h1 : ∀ i j, PowOk G (G.wf (X.Z i) (X.Z j)) (X.Z i) (X.cnFn i x))
    (h2 : ∀ i, EvOk G (X.Z i) 0) (hr : ∀ i j, 0 < radius G X i j) (i : Fin n) :
    (threeBody G X (rc G) i).eval x = .fin (e3V G X i x) := by
  have hC : ∀ i j, (c6 G X (rc G) (fun _ => const 0) i j).eval x = .fin (CV0 G X i j x) := fun i j =>
    eval_c6 (d := fun _ => 0) (fun _ => rfl) h1 (h2 i) (h2 j)
  have h9 : ∀ i j k, (c9 G X (rc G) i j k).eval x = .fin (c9V G X i j k x) := fun i j k => by
    unfold c9 c9V
    refine eval_ssqrt (eval_abs ?_)
    rw [eval, eval, hC, hC, hC]
    rfl
  unfold threeBody e3V
  have ht : ∀ j k, (mul (mul (mul (ang G X i j k) (fdamp G X i j k)) (const G.s9))
      (c9 G X (rc G) i j k)).eval x =
      .fin (angV G X i j k x * fV G X i j k x * G.s9 * c9V G X i j k x) := fun j k => by
    have a1 := (Tame.ang (G := G) (X := X) (x := x) i j k).1
    have a2 := (Tame.fdamp (x := x) hr i j k).1
    rw [eval_mul, eval_mul, eval_mul, a1, a2, h9 i j k]
    rfl
  rw [eval, eval_sum fun j => eval_sum fun k => ht j k]
  simp [eval, FP.div]

/-! ## Derivatives -/

/-- Conditions for the gradient with respect to the charge `x` of atom `a` to be the derivative. -/
structure ChOk (G : GradCfg) (X : GradSys n) (a : Fin n) (x : ℝ) : Prop where
  only : OnlyCharge X a
  pow : ∀ i j, PowOk G (G.wf (X.Z i) (X.Z j)) (X.Z i) (X.cnFn i x)
  radii : ∀ i j, 0 < radius G X i j
  neutral : ∀ i, EvOk G (X.Z i) 0
  others : ∀ i ≠ a, EvOk G (X.Z i) (X.qFn i x)
  charge : ChargeOk G (X.Z a) x
  sign : (∃ r < nref, 0 < G.T.refc (X.Z a) r) →
    G.env.eps < x + G.T.zeff (X.Z a) ∨ x + G.T.zeff (X.Z a) < 0
  scale : ScaleOk G (X.Z a)
  refc : ∀ r < nref, G.T.refc 0 r = 0
  tracked : X.qGrad a = true

/-- `zeta` below zero: constant. -/
theorem Fine.zeta_neg {gam qref : ℝ} {f : ℝ → ℝ} (hq : Fine q f x) (h : f x < 0)
    (ho : Real.exp (gam * (1 - qref / (f x - G.env.eps))) ≤ G.env.fmax) :
    Fine (Tape.zeta G gam qref q) (fun y => (zetaF G.env.eps G.ga gam qref (f y)).toReal) x := by
  have hne : f x - G.env.eps ≠ 0 := by
    have := G.env.eps_pos
    linarith
  have hev := hq.continuousAt.eventually_lt continuousAt_const h
  have h1 := ((Tame.const (c := qref)).div (hq.tame.sub Tame.const) hne)
  unfold Tape.zeta
  have := Fine.sel_false (P := fun y => (q.eval y).gt 0)
    (((Tame.const (c := G.ga)).mul ((Tame.const (c := 1)).sub
      (((Tame.const (c := gam)).mul ((Tame.const (c := 1)).sub h1)).expo ho))).exp (fl := id))
    ((Fine.const (c := G.ga)).exp) (by
      filter_upwards [hq.1, hev] with y h1 h2
      rw [h1]
      exact not_lt.2 h2.le)
  refine this.congr ?_
  filter_upwards [hev] with y hy
  have hne' : f y - G.env.eps ≠ 0 := by
    have := G.env.eps_pos
    linarith
  rw [zetaF_fin hne', if_neg (not_lt.2 hy.le)]
  rfl

namespace ChOk
variable (h : ChOk G X a x)
include h

theorem pow' (y : ℝ) (i j : Fin n) : PowOk G (G.wf (X.Z i) (X.Z j)) (X.Z i) (X.cnFn i y) := by
  rw [h.only.cnC i y x]
  exact h.pow i j

theorem weight (i j : Fin n) {r : ℕ} (hr : r < nref) :
    Fine (weight G (G.wf (X.Z i) (X.Z j)) (X.Z i) r (X.cn i) (X.q i))
      (fun y => wtAt G.env G.T G.R ⟨X.Z i, X.cnFn i y, X.qFn i y⟩ (X.Z j) r) x := by
  by_cases hi : i = a
  · subst hi
    have hg : Fine (gw G (G.wf (X.Z i) (X.Z j)) (X.Z i) r (X.cn i)) (fun y => (gwOf G.env G.T (X.Z i)
        (expwSel G.env G.T G.kind (G.wf (X.Z i) (X.Z j)) (X.Z i) (X.cnFn i y)) r).toReal) x := by
      simp only [h.only.cnC i _ x]
      refine Fine.of_noLeaf (NoLeaf.gw (h.only.noLeaf_cn i)) fun y => ?_
      have hc : Tame (X.cn i) y (X.cnFn i y) := Tame.input
      rw [eval_gw hc hr (h.pow' y i j), h.only.cnC i y x]
    have hq : Fine (X.q i) (X.qFn i) x := by
      have : X.qFn i = fun y => y := funext h.only.qa
      refine Fine.input ?_ fun h0 => ?_
      · rw [this]
        exact differentiableAt_id
      · rw [h.tracked] at h0
        cases h0
    have hq' := hq.add (Fine.const (c := G.T.zeff (X.Z i)))
    have hx : X.qFn i x = x := h.only.qa x
    refine Fine.mul ?_ hg
    unfold zetaAt
    by_cases hm : 0 < G.T.refc (X.Z i) r
    · have hZ : X.Z i ≠ 0 := by
        intro h0
        rw [h0, h.refc r hr] at hm
        exact lt_irrefl _ hm
      have hz : Fine (zeta G (G.T.gam (X.Z i) * G.gc) (refq G (X.Z i) r + G.T.zeff (X.Z i))
          (add (X.q i) (const (G.T.zeff (X.Z i))))) (fun y => (zetaF G.env.eps G.ga
            (G.T.gam (X.Z i) * G.gc) (refqAt G.T G.rq (X.Z i) r + G.T.zeff (X.Z i))
            (X.qFn i y + G.T.zeff (X.Z i))).toReal) x := by
        rcases h.sign ⟨r, hr, hm⟩ with h0 | h0
        · exact Fine.zeta hq' (by rw [hx]; exact h0) h.scale.gam (h.scale.qref hZ r hr) h.scale.le
        · exact Fine.zeta_neg hq' (by rw [hx]; exact h0) (by rw [hx]; exact h.charge.le r hr)
      refine (Fine.sel_true hz (Tame.const (c := 0)) (.of_forall fun _ => hm)).congr' fun y => ?_
      rw [if_pos hm]
      rfl
    · refine (Fine.sel_false (P := fun _ => 0 < G.T.refc (X.Z i) r)
        (Tame.zeta (gam := G.T.gam (X.Z i) * G.gc) (qref := refq G (X.Z i) r + G.T.zeff (X.Z i))
          hq'.tame (by rw [hx]; exact h.charge.ne) (by rw [hx]; exact h.charge.le r hr))
        (Fine.const (c := 0)) (.of_forall fun _ => hm)).congr' fun y => ?_
      rw [if_neg hm]
  · simp only [h.only.cnC i _ x, h.only.qC i hi _ x]
    refine Fine.of_noLeaf (NoLeaf.weight (h.only.noLeaf_cn i) (h.only.noLeaf_q hi)) fun y => ?_
    refine (eval_weight Tame.input Tame.input.1 hr (h.pow' y i j) ?_).trans ?_
    · rw [h.only.qC i hi y x]
      exact h.others i hi
    · rw [h.only.cnC i y x, h.only.qC i hi y x]

theorem C (i j : Fin n) : Fine (c6 G X (rc G) X.q i j) (fun y => CV G X i j y) x := by
  unfold Tape.c6 CV c6At c6Of
  refine (Fine.sum fun a : Fin nref => Fine.sum fun b : Fin nref => Fine.const.mul
    ((h.weight i j a.2).mul (h.weight j i b.2))).congr' fun y => ?_
  simp only [Finset.sum_range]
  rfl

theorem damped {k : ℕ} (hk : Even k) (i j : Fin n) :
    Fine (damped G X k i j) (fun y => tV G X k i j y) x := by
  have : ∀ y, tV G X k i j y = tV G X k i j x := fun y => by
    unfold tV
    rw [h.only.dV_const y x]
  simp only [this]
  refine Fine.of_noLeaf (h.only.noLeaf_damped k i j) fun y => ?_
  rw [(Tame.damped hk i j).1, this]

theorem twoBody (i : Fin n) : Fine (twoBody G X (rc G) i) (fun y => e2V G X i y) x := by
  unfold Tape.twoBody e2V
  have h6 : Even 6 := by decide
  have h8 : Even 8 := by decide
  have h10 : Even 10 := by decide
  have e6 := (Fine.const (c := G.s6)).mul (Fine.sum fun j => (h.C i j).mul (h.damped h6 i j))
  have e8 := (Fine.const (c := G.s8)).mul (Fine.sum fun j => ((h.C i j).mul
    (Fine.const (c := 3 * X.Q i * X.Q j))).mul (h.damped h8 i j))
  cases G.s10 with
  | none => exact Fine.const.mul (e6.add e8)
  | some s10 =>
    exact Fine.const.mul ((e6.add e8).add (Fine.const.mul (Fine.sum fun j =>
      ((((h.C i j).mul (Fine.const (c := (3 * X.Q i * X.Q j) ^ 2))).mul
        (Fine.const (c := 49))).div (Fine.const (c := 40)) (by norm_num)).mul
        (h.damped h10 i j))))

theorem threeBody (i : Fin n) : Fine (threeBody G X (rc G) i) (fun y => e3V G X i y) x := by
  have hC : ∀ y i j, CV0 G X i j y = CV0 G X i j x := fun y i j => by
    show c6At G.env G.T G.R ⟨X.Z i, X.cnFn i y, 0⟩ ⟨X.Z j, X.cnFn j y, 0⟩ = _
    rw [h.only.cnC i y x, h.only.cnC j y x]
    rfl
  have : ∀ y, e3V G X i y = e3V G X i x := fun y => by
    unfold e3V c9V angV angC fV sV rrV r5V r3V r2V
    simp only [hC y, h.only.dV_const y x]
  simp only [this]
  refine Fine.of_noLeaf (h.only.noLeaf_threeBody _ i) fun y => ?_
  rw [eval_threeBody (h.pow' y) h.neutral h.radii, this]

theorem energy (hcut : 0 ≤ G.cut3) (i : Fin n) :
    Fine (energy G X (rc G) i) (fun y => Spec.energy G.S (X.mol y) i) x :=
  ((Fine.const.add (h.twoBody i)).add (h.threeBody i)).congr' fun y => energyV_eq hcut i y

end ChOk

/-! ## Overflow -/

/-- The inner exponential of the scaling overflows in the branch that is not selected: NaN. -/
theorem zeta_bad {gam qref : ℝ} (hq : q.eval x = .fin c) (h : c ≤ 0) (hga : 0 < G.ga)
    (ho : G.env.fmax < Real.exp (gam * (1 - qref / (c - G.env.eps)))) (hb : q.back x .nan = .nan) :
    Bad (zeta G gam qref q) x := by
  have hne : c - G.env.eps ≠ 0 := by
    have := G.env.eps_pos
    linarith
  intro g
  unfold zeta
  simp only [back, eval, hq, FP.sub, FP.neg, FP.add, FP.div, FP.mul, FP.gt, ← sub_eq_add_neg, hne, ne_eq,
    not_false_eq_true, if_true, not_lt.2 h, if_false, FP.oexp, not_le.2 ho, hga, FP.flexp]
  simp [FP.mul, FP.add, FP.neg, FP.div, hb, hga]

end Tape

end TadDftd4
