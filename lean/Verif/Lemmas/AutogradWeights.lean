import Verif.Lemmas.Autograd
import Verif.Lemmas.C6Spec

/-!
# Backward pass through the reference weights and C6 coefficients
-/

set_option linter.unusedSimpArgs false

open scoped Classical Topology

namespace TadDftd4

open Tensor

/-- Settings of the reference model. -/
def GradCfg.R (G : GradCfg) : RefCfg where
  kind := G.kind
  ga := G.ga
  gc := G.gc
  rq := G.rq
  wf := G.wf

namespace Tape

variable {G : GradCfg} {w : ℝ} {Z r : ℕ} {cn q : Tape} {x c d : ℝ} {f h : ℝ → ℝ}

/-- Value of `tmp`. -/
noncomputable def tmpV (G : GradCfg) (w : ℝ) (Z r : ℕ) (c : ℝ) : ℝ :=
  match G.kind with
  | .d4 => tmpD4 G.env c (G.T.refcn Z r)
  | _ => if 0 < G.T.refc Z r then tmpD4S G.env w c (G.T.refcn Z r) else 0

theorem tmpV_nonneg : 0 ≤ tmpV G w Z r c := by
  unfold tmpV tmpD4 tmpD4S
  split
  · exact G.env.fl_nonneg _ (Real.exp_pos _).le
  · split_ifs
    · exact G.env.fl_nonneg _ (Real.exp_pos _).le
    · exact le_rfl

theorem Tame.tmp (hc : Tame cn x c) : Tame (tmp G w Z r cn) x (tmpV G w Z r c) := by
  unfold Tape.tmp tmpV tmpD4 tmpD4S
  have hd := hc.sub (Tame.const (c := G.T.refcn Z r))
  cases G.kind
  · exact (hd.neg.mul hd).exp
  all_goals
    exact Tame.sel (P := fun _ => 0 < G.T.refc Z r) ((hd.neg.mul (hd.mul Tame.const)).exp) Tame.const

/-- Value of the powers. -/
noncomputable def powV (G : GradCfg) (w : ℝ) (Z r : ℕ) (c : ℝ) (i : ℕ) : ℝ :=
  match G.kind with
  | .d4 => G.env.fl (tmpV G w Z r c ^ ((i : ℝ) * w))
  | _ => G.env.fl (tmpV G w Z r c ^ (i : ℝ))

/-- The Gaussian does not vanish or the weighting factor is at least one. -/
def PowOk (G : GradCfg) (w : ℝ) (Z : ℕ) (c : ℝ) : Prop :=
  G.kind = .d4 → 1 ≤ w ∨ ∀ r < nref, 0 < tmpV G w Z r c

theorem Tame.powT (hc : Tame cn x c) (hr : r < nref) (h1 : PowOk G w Z c) {i : ℕ} (hi : 1 ≤ i) :
    Tame (powT G w Z r cn i) x (powV G w Z r c i) := by
  have ht := Tame.tmp (G := G) (w := w) (Z := Z) (r := r) hc
  have h0 := tmpV_nonneg (G := G) (w := w) (Z := Z) (r := r) (c := c)
  have hi' : (1 : ℝ) ≤ i := by exact_mod_cast hi
  unfold Tape.powT powV
  unfold PowOk at h1
  cases hk : G.kind
  · refine ht.pow ?_
    rcases h1 hk with h1 | h1
    · exact Or.inr ⟨h0, by nlinarith⟩
    · exact Or.inl (h1 r hr)
  all_goals exact ht.pow (Or.inr ⟨h0, hi'⟩)

theorem powV_eq (hm : 0 < G.T.refc Z r) (i : ℕ) : powV G w Z r c i = match G.kind with
    | .d4 => powD4 G.env w c (G.T.refcn Z r) i
    | _ => powD4S G.env w c (G.T.refcn Z r) i := by
  unfold powV powD4 powD4S
  cases hk : G.kind <;> simp [tmpV, hk, hm, Real.rpow_natCast]

theorem Tame.expw (hc : Tame cn x c) (hr : r < nref) (h1 : PowOk G w Z c) :
    Tame (expw G w Z r cn) x (expwSel G.env G.T G.kind w Z c r) := by
  have ht := Tame.tmp (G := G) (w := w) (Z := Z) (r := r) hc
  have hp := fun {i : ℕ} (hi : 1 ≤ i) => Tame.powT (G := G) (w := w) (Z := Z) (r := r) hc hr h1 hi
  have p1 := hp (i := 1) le_rfl
  have p2 := hp (i := 2) (by norm_num)
  have p3 := hp (i := 3) (by norm_num)
  have z : Tame (Tape.const 0) x 0 := Tame.const
  unfold Tape.expw
  refine (Tame.sel (P := fun _ => 0 < G.T.refc Z r)
    (Tame.sel (P := fun _ => G.T.refc Z r = 3) (((z.add p1).add p2).add p3)
      (Tame.sel (P := fun _ => G.T.refc Z r = 1) (z.add p1) ht)) z).congr ?_
  by_cases hm : 0 < G.T.refc Z r
  · simp only [powV_eq hm, expwSel, expwD4, expwD4S]
    cases hk : G.kind <;> simp [hm, tmpV, hk]
  · simp only [expwSel, expwD4, expwD4S]
    cases hk : G.kind <;> simp [hm]

/-- Sum of the Gaussians of all references of an atom. -/
noncomputable def normV (G : GradCfg) (w : ℝ) (Z : ℕ) (c : ℝ) : ℝ :=
  ∑ s ∈ Finset.range nref, expwSel G.env G.T G.kind w Z c s

theorem tiny_pos : 0 < tiny := by unfold tiny; positivity

theorem Tame.norm (hc : Tame cn x c) (h1 : PowOk G w Z c) :
    Tame (norm G w Z r cn) x (if 0 < G.T.refc Z r then normV G w Z c else tiny) := by
  unfold Tape.norm
  refine Tame.sel (P := fun _ => 0 < G.T.refc Z r) ?_ Tame.const
  refine (Tame.sum fun s : Fin nref => Tame.expw hc s.2 h1).congr ?_
  rw [normV, Finset.sum_range]

/-- Not all Gaussians of the references of the atom have underflown. -/
def NormOk (G : GradCfg) (w : ℝ) (Z : ℕ) (c : ℝ) : Prop :=
  (∃ r < nref, 0 < G.T.refc Z r) → normV G w Z c ≠ 0

theorem Tame.gwTemp (hc : Tame cn x c) (hr : r < nref) (h1 : PowOk G w Z c) (h2 : NormOk G w Z c) :
    ∃ v, Tame (gwTemp G w Z r cn) x v ∧
      gwTempOf G.T Z (expwSel G.env G.T G.kind w Z c) r = .fin v := by
  have hn := Tame.norm (r := r) hc h1
  have h0 : (if 0 < G.T.refc Z r then normV G w Z c else tiny) ≠ 0 := by
    split_ifs with hm
    · exact h2 ⟨r, hr, hm⟩
    · exact tiny_pos.ne'
  refine ⟨_, (Tame.expw hc hr h1).div hn h0, ?_⟩
  unfold gwTempOf
  rw [← normV, FP.div, if_pos h0]

theorem Tame.gw (hc : Tame cn x c) (hr : r < nref) (h1 : PowOk G w Z c) (h2 : NormOk G w Z c) :
    Tame (gw G w Z r cn) x (gwOf G.env G.T Z (expwSel G.env G.T G.kind w Z c) r).toReal := by
  obtain ⟨v, hv, he⟩ := Tame.gwTemp hc hr h1 h2
  unfold Tape.gw
  refine (Tame.sel (P := fun y => ((Tape.gwTemp G w Z r cn).eval y).isExceptional G.env.fmax)
    (Tame.sel (P := fun _ => G.T.refcn Z r = maxN (G.T.refcn Z) (nref - 1)) (Tame.const (c := 1))
      (Tame.const (c := 0))) hv).congr ?_
  rw [hv.1, gwOf, he]
  split_ifs <;> rfl

theorem zetaF_fin {eps ga gam qref c : ℝ} (h : c - eps ≠ 0) : zetaF eps ga gam qref c =
    .fin (if 0 < c then Real.exp (ga * (1 - Real.exp (gam * (1 - qref / (c - eps))))) else
      Real.exp ga) := by
  unfold zetaF scaleF
  rw [FP.div, if_pos h]
  split_ifs
  · rfl
  · rfl

theorem Tame.zeta {gam qref : ℝ} (hq : Tame q x c) (h : c ≠ G.env.eps)
    (ho : Real.exp (gam * (1 - qref / (c - G.env.eps))) ≤ G.env.fmax) :
    Tame (zeta G gam qref q) x (zetaF G.env.eps G.ga gam qref c).toReal := by
  have hne : c - G.env.eps ≠ 0 := sub_ne_zero.2 h
  have h1 := ((Tame.const (c := qref)).div (hq.sub Tame.const) hne)
  unfold Tape.zeta
  refine (Tame.sel (P := fun y => (q.eval y).gt 0)
    (((Tame.const (c := G.ga)).mul ((Tame.const (c := 1)).sub
      (((Tame.const (c := gam)).mul ((Tame.const (c := 1)).sub h1)).expo ho))).exp (fl := id))
    ((Tame.const (c := G.ga)).exp (fl := id))).congr ?_
  rw [hq.1, zetaF_fin hne]
  rfl

theorem refq_eq : refq G Z r = refqAt G.T G.rq Z r := rfl

/-- The charge is not where the scaling function is singular, and its inner exponential does not
overflow. -/
structure ChargeOk (G : GradCfg) (Z : ℕ) (q : ℝ) : Prop where
  ne : q + G.T.zeff Z ≠ G.env.eps
  le : ∀ r < nref, Real.exp (G.T.gam Z * G.gc * (1 - (refqAt G.T G.rq Z r + G.T.zeff Z) /
    (q + G.T.zeff Z - G.env.eps))) ≤ G.env.fmax

/-- The inner exponential does not overflow for atoms with positive effective charge. -/
structure ScaleOk (G : GradCfg) (Z : ℕ) : Prop where
  gam : 0 ≤ G.T.gam Z * G.gc
  le : Real.exp (G.T.gam Z * G.gc) ≤ G.env.fmax
  pad : Z = 0 → ∀ r < nref, G.T.gam Z = 0 ∨ refqAt G.T G.rq Z r + G.T.zeff Z = 0
  qref : Z ≠ 0 → ∀ r < nref, 0 ≤ refqAt G.T G.rq Z r + G.T.zeff Z

theorem exp_scale_le {gam qref z fmax : ℝ} (hg : 0 ≤ gam) (hr : 0 ≤ qref) (hz : 0 < z)
    (h : Real.exp gam ≤ fmax) : Real.exp (gam * (1 - qref / z)) ≤ fmax := by
  refine le_trans (Real.exp_le_exp.2 ?_) h
  have := div_nonneg hr hz.le
  nlinarith

theorem ScaleOk.charge (h : ScaleOk G Z) {q : ℝ} (h0 : Z ≠ 0 → G.env.eps < q + G.T.zeff Z)
    (h1 : Z = 0 → q + G.T.zeff Z ≠ G.env.eps) : ChargeOk G Z q := by
  by_cases hZ : Z = 0
  · refine ⟨h1 hZ, fun r hr => ?_⟩
    rcases h.pad hZ r hr with h0 | h0
    · rw [h0]
      simpa using G.env.one_le_fmax
    · rw [h0]
      simpa using h.le
  · exact ⟨(h0 hZ).ne', fun r hr =>
      exp_scale_le h.gam (h.qref hZ r hr) (sub_pos.2 (h0 hZ)) h.le⟩

theorem Tame.weight {Zp : ℕ} (hc : Tame cn x c) (hq : Tame q x d) (hr : r < nref)
    (h1 : PowOk G (G.wf Z Zp) Z c) (h2 : NormOk G (G.wf Z Zp) Z c) (h3 : ChargeOk G Z d) :
    Tame (weight G (G.wf Z Zp) Z r cn q) x (wtAt G.env G.T G.R ⟨Z, c, d⟩ Zp r) := by
  unfold Tape.weight wtAt wtOf zetaAt
  refine Tame.mul ?_ (Tame.gw hc hr h1 h2)
  exact Tame.sel (P := fun _ => 0 < G.T.refc Z r) (Tame.zeta (hq.add Tame.const) h3.ne (h3.le r hr)) Tame.const

/-! ## Derivatives -/

theorem Fine.tmp (hfl : G.env.fl = id) (hc : Fine cn f x) (hm : 0 < G.T.refc Z r) :
    Fine (tmp G w Z r cn) (fun y => tmpV G w Z r (f y)) x := by
  unfold Tape.tmp tmpV tmpD4 tmpD4S
  have hd := hc.sub (Fine.const (c := G.T.refcn Z r))
  rw [hfl]
  cases G.kind
  · exact (hd.neg.mul hd).exp
  all_goals
    simp only [hm, if_true, id]
    exact Fine.sel_true ((hd.neg.mul (hd.mul Fine.const)).exp) (Tame.const (c := 0))
      (.of_forall fun _ => trivial)

theorem tmpV_pos (hfl : G.env.fl = id) (h : G.kind = .d4 ∨ 0 < G.T.refc Z r) :
    0 < tmpV G w Z r c := by
  unfold tmpV tmpD4 tmpD4S
  rw [hfl]
  cases hk : G.kind <;> simp [hk] at h <;> simp [h, Real.exp_pos]

theorem powOk_id (hfl : G.env.fl = id) : PowOk G w Z c :=
  fun hk => Or.inr fun _ _ => tmpV_pos hfl (Or.inl hk)

theorem Fine.powT (hfl : G.env.fl = id) (hc : Fine cn f x) (hm : 0 < G.T.refc Z r) {i : ℕ} :
    Fine (powT G w Z r cn i) (fun y => powV G w Z r (f y) i) x := by
  have ht := Fine.tmp (w := w) hfl hc hm
  have h0 := tmpV_pos (w := w) (c := f x) hfl (Or.inr hm)
  unfold Tape.powT powV
  rw [hfl]
  cases hk : G.kind <;> exact ht.pow h0

theorem Fine.expw (hfl : G.env.fl = id) (hc : Fine cn f x) (hr : r < nref) :
    Fine (expw G w Z r cn) (fun y => expwSel G.env G.T G.kind w Z (f y) r) x := by
  by_cases hm : 0 < G.T.refc Z r
  · have ht := Fine.tmp (w := w) hfl hc hm
    have hp := fun {i : ℕ} => Fine.powT (w := w) (i := i) hfl hc hm
    have z : Fine (Tape.const 0) (fun _ => 0) x := Fine.const
    unfold Tape.expw
    refine (Fine.sel_const (Fine.sel_const (((z.add (hp (i := 1))).add (hp (i := 2))).add
      (hp (i := 3))) (Fine.sel_const (z.add (hp (i := 1))) ht)) z).congr' fun y => ?_
    simp only [powV_eq hm, expwSel, expwD4, expwD4S]
    cases hk : G.kind <;> simp [hm, tmpV, hk]
  · have ht := (Tame.expw (G := G) (w := w) (Z := Z) hc.tame hr (powOk_id hfl)).2
    refine ⟨.of_forall fun y => ?_, ?_⟩
    · simp only [Tape.expw, Tape.eval, hm, if_false, expwSel, expwD4, expwD4S]
      cases G.kind <;> rfl
    · have hz : ∀ y, expwSel G.env G.T G.kind w Z (f y) r = 0 := by
        intro y
        simp only [expwSel, expwD4, expwD4S, hm, if_false]
        cases G.kind <;> rfl
      refine ⟨0, ?_, fun g => ?_⟩
      · simp only [hz]
        exact hasDerivAt_const _ _
      · obtain ⟨v, hv⟩ := ht
        have h0 : ∀ g, (Tape.expw G w Z r cn).back x g =
          (Tape.expw G w Z r cn).back x (.fin 0) := by
          intro g
          simp [Tape.expw, Tape.back, hm]
        rw [h0, hv]
        simp

theorem expwSel_nonneg : 0 ≤ expwSel G.env G.T G.kind w Z c r := by
  unfold expwSel expwD4 expwD4S powD4 powD4S tmpD4 tmpD4S
  have h := G.env.fl_nonneg
  cases G.kind <;> dsimp only <;> split_ifs <;>
    first
    | exact le_rfl
    | exact h _ (Real.exp_pos _).le
    | exact h _ (Real.rpow_nonneg (h _ (Real.exp_pos _).le) _)
    | exact h _ (pow_nonneg (h _ (Real.exp_pos _).le) _)
    | exact add_nonneg (add_nonneg (h _ (Real.rpow_nonneg (h _ (Real.exp_pos _).le) _))
        (h _ (Real.rpow_nonneg (h _ (Real.exp_pos _).le) _)))
        (h _ (Real.rpow_nonneg (h _ (Real.exp_pos _).le) _))
    | exact add_nonneg (add_nonneg (h _ (pow_nonneg (h _ (Real.exp_pos _).le) _))
        (h _ (pow_nonneg (h _ (Real.exp_pos _).le) _)))
        (h _ (pow_nonneg (h _ (Real.exp_pos _).le) _))

theorem expwSel_pos (hfl : G.env.fl = id) (hm : 0 < G.T.refc Z r) :
    0 < expwSel G.env G.T G.kind w Z c r := by
  unfold expwSel expwD4 expwD4S powD4 powD4S tmpD4 tmpD4S
  rw [hfl]
  cases G.kind <;> simp only [hm, if_true, id] <;> split_ifs <;> positivity

theorem normV_pos (hfl : G.env.fl = id) (h : ∃ r < nref, 0 < G.T.refc Z r) : 0 < normV G w Z c := by
  obtain ⟨r, hr, hm⟩ := h
  refine lt_of_lt_of_le (expwSel_pos (w := w) (c := c) hfl hm) ?_
  exact Finset.single_le_sum (f := fun s => expwSel G.env G.T G.kind w Z c s)
    (fun s _ => expwSel_nonneg) (Finset.mem_range.2 hr)

theorem normOk_id (hfl : G.env.fl = id) : NormOk G w Z c := fun h => (normV_pos hfl h).ne'

theorem Fine.gwTemp (hfl : G.env.fl = id) (hc : Fine cn f x) (hr : r < nref) :
    ∃ v : ℝ → ℝ, Fine (gwTemp G w Z r cn) v x ∧ (∀ y, v y ≤ 1) ∧
      ∀ y, gwTempOf G.T Z (expwSel G.env G.T G.kind w Z (f y)) r = .fin (v y) := by
  have hn : Fine (norm G w Z r cn) (fun y => if 0 < G.T.refc Z r then normV G w Z (f y) else tiny)
      x := by
    unfold Tape.norm
    refine Fine.sel_const ?_ Fine.const
    refine (Fine.sum fun s : Fin nref => Fine.expw hfl hc s.2).congr' fun y => ?_
    rw [normV, Finset.sum_range]
  have h0 : ∀ y, 0 < (if 0 < G.T.refc Z r then normV G w Z (f y) else tiny) := by
    intro y
    split_ifs with hm
    · exact normV_pos hfl ⟨r, hr, hm⟩
    · exact tiny_pos
  refine ⟨_, (Fine.expw hfl hc hr).div hn (h0 x).ne', fun y => ?_, fun y => ?_⟩
  · refine div_le_one_of_le₀ ?_ (h0 y).le
    split_ifs with hm
    · exact Finset.single_le_sum (f := fun s => expwSel G.env G.T G.kind w Z (f y) s)
        (fun s _ => expwSel_nonneg) (Finset.mem_range.2 hr)
    · have hz : expwSel G.env G.T G.kind w Z (f y) r = 0 := by
        simp only [expwSel, expwD4, expwD4S, hm, if_false]
        cases G.kind <;> rfl
      rw [hz]
      exact tiny_pos.le
  · unfold gwTempOf
    rw [← normV, FP.div, if_pos (h0 y).ne']

theorem Fine.gw (hfl : G.env.fl = id) (hc : Fine cn f x) (hr : r < nref) :
    Fine (gw G w Z r cn)
      (fun y => (gwOf G.env G.T Z (expwSel G.env G.T G.kind w Z (f y)) r).toReal) x := by
  obtain ⟨v, hv, h1, he⟩ := Fine.gwTemp (G := G) (w := w) (Z := Z) hfl hc hr
  have hno : ∀ y, ¬ FP.isExceptional G.env.fmax (.fin (v y)) := fun y =>
    not_lt.2 ((h1 y).trans G.env.one_le_fmax)
  unfold Tape.gw
  have := Fine.sel_false (P := fun y => ((Tape.gwTemp G w Z r cn).eval y).isExceptional G.env.fmax)
    (Tame.sel (x := x) (P := fun _ => G.T.refcn Z r = maxN (G.T.refcn Z) (nref - 1))
      (Tame.const (c := 1)) (Tame.const (c := 0))) hv
    (hv.1.mono fun y h => by rw [h]; exact hno y)
  refine this.congr' fun y => ?_
  rw [gwOf, he, if_neg (hno y)]
  rfl

theorem Fine.zeta {gam qref : ℝ} (hq : Fine q f x) (h : G.env.eps < f x) (hg : 0 ≤ gam)
    (hr : 0 ≤ qref) (ho : Real.exp gam ≤ G.env.fmax) :
    Fine (zeta G gam qref q) (fun y => (zetaF G.env.eps G.ga gam qref (f y)).toReal) x := by
  have hne : f x - G.env.eps ≠ 0 := (sub_pos.2 h).ne'
  have h1 := (Fine.const (c := qref)).div (hq.sub (Fine.const (c := G.env.eps))) hne
  have hev := continuousAt_const.eventually_lt hq.continuousAt h
  unfold Tape.zeta
  have := Fine.sel_true (P := fun y => (q.eval y).gt 0)
    (((Fine.const (c := G.ga)).mul ((Fine.const (c := 1)).sub
      (((Fine.const (c := gam)).mul ((Fine.const (c := 1)).sub h1)).expo
        (exp_scale_le hg hr (sub_pos.2 h) ho) (hev.mono fun y hy =>
          exp_scale_le hg hr (sub_pos.2 hy) ho)))).exp)
    ((Tame.const (c := G.ga)).exp (fl := id)) (by
      filter_upwards [hq.1, hev] with y h1 h2
      rw [h1]
      exact G.env.eps_pos.trans h2)
  refine this.congr ?_
  filter_upwards [hev] with y hy
  have hne' : f y - G.env.eps ≠ 0 := (sub_pos.2 hy).ne'
  have hp : 0 < f y := G.env.eps_pos.trans hy
  rw [zetaF_fin hne', if_pos hp]
  rfl

theorem Fine.weight {Zp : ℕ} (hfl : G.env.fl = id) (hc : Fine cn f x) (hq : Fine q h x)
    (hr : r < nref) (h3 : ChargeOk G Z (h x)) (h5 : ScaleOk G Z) (hZ : 0 < G.T.refc Z r → Z ≠ 0)
    (h4 : 0 < G.T.refc Z r → G.env.eps < h x + G.T.zeff Z) :
    Fine (weight G (G.wf Z Zp) Z r cn q) (fun y => wtAt G.env G.T G.R ⟨Z, f y, h y⟩ Zp r) x := by
  unfold Tape.weight wtAt wtOf zetaAt
  refine Fine.mul ?_ (Fine.gw hfl hc hr)
  by_cases hm : 0 < G.T.refc Z r
  · refine Fine.congr' (Fine.sel_true (Fine.zeta (hq.add (Fine.const (c := G.T.zeff Z))) (h4 hm)
      h5.gam (h5.qref (hZ hm) r hr) h5.le)
      (Tame.const (c := 0)) (.of_forall fun _ => hm)) fun y => ?_
    rw [if_pos hm]
    rfl
  · refine Fine.congr' (Fine.sel_false (P := fun _ => 0 < G.T.refc Z r)
      (Tame.zeta (gam := G.T.gam Z * G.gc)
      (qref := Tape.refq G Z r + G.T.zeff Z) (hq.tame.add (Tame.const (c := G.T.zeff Z))) h3.ne
        (h3.le r hr))
      (Fine.const (c := 0)) (.of_forall fun _ => hm)) fun y => ?_
    rw [if_neg hm]

/-! ## C6 -/

variable {n : ℕ} {X : GradSys n} {Q : Fin n → Tape} {i j : Fin n}

/-- Conditions for finite derivatives of the weights of atom `i` with partner `j`. -/
structure WOk (G : GradCfg) (X : GradSys n) (x : ℝ) (i j : Fin n) (q : ℝ) : Prop where
  pow : PowOk G (G.wf (X.Z i) (X.Z j)) (X.Z i) (X.cnFn i x)
  norm : NormOk G (G.wf (X.Z i) (X.Z j)) (X.Z i) (X.cnFn i x)
  charge : ChargeOk G (X.Z i) q

theorem Tame.c6 {rc : ℕ → ℕ → ℕ → ℕ → ℝ} (hrc : rc = rc6At G.env G.T G.ga G.gc G.rq) {d : Fin n → ℝ}
    (hq : ∀ i, Tame (Q i) x (d i)) (hi : WOk G X x i j (d i)) (hj : WOk G X x j i (d j)) :
    Tame (c6 G X rc Q i j) x (c6At G.env G.T G.R ⟨X.Z i, X.cnFn i x, d i⟩ ⟨X.Z j, X.cnFn j x, d j⟩) := by
  unfold Tape.c6 c6At c6Of
  subst hrc
  refine (Tame.sum fun a : Fin nref => Tame.sum fun b : Fin nref => Tame.const.mul
    ((Tame.weight Tame.input (hq i) a.2 hi.pow hi.norm hi.charge).mul
      (Tame.weight Tame.input (hq j) b.2 hj.pow hj.norm hj.charge))).congr ?_
  simp only [Finset.sum_range]
  rfl

theorem Fine.c6 {rc : ℕ → ℕ → ℕ → ℕ → ℝ} (hrc : rc = rc6At G.env G.T G.ga G.gc G.rq)
    (hfl : G.env.fl = id) {d : Fin n → ℝ → ℝ} (hc : ∀ i, DifferentiableAt ℝ (X.cnFn i) x)
    (hc' : X.cnGrad = false → ∀ i, ∃ c, X.cnFn i = fun _ => c)
    (h5 : ∀ i, ScaleOk G (X.Z i)) (hZ : ∀ r < nref, G.T.refc 0 r = 0)
    (hq : ∀ i, Fine (Q i) (d i) x) (h3 : ∀ i, ChargeOk G (X.Z i) (d i x))
    (h4 : ∀ i, (∃ r < nref, 0 < G.T.refc (X.Z i) r) → G.env.eps < d i x + G.T.zeff (X.Z i)) :
    Fine (c6 G X rc Q i j) (fun y => c6At G.env G.T G.R ⟨X.Z i, X.cnFn i y, d i y⟩
      ⟨X.Z j, X.cnFn j y, d j y⟩) x := by
  unfold Tape.c6 c6At c6Of
  subst hrc
  have hW : ∀ (i j : Fin n) (a : Fin nref), Fine (Tape.weight G (G.wf (X.Z i) (X.Z j)) (X.Z i) a (X.cn i) (Q i))
      (fun y => wtAt G.env G.T G.R ⟨X.Z i, X.cnFn i y, d i y⟩ (X.Z j) a) x := fun i j a =>
    Fine.weight hfl (Fine.input (hc i) fun h => hc' h i) (hq i) a.2 (h3 i) (h5 i)
      (fun hm h0 => by rw [h0, hZ a a.2] at hm; exact lt_irrefl _ hm) fun hm => h4 i ⟨a, a.2, hm⟩
  refine (Fine.sum fun a : Fin nref => Fine.sum fun b : Fin nref => Fine.const.mul
    ((hW i j a).mul (hW j i b))).congr' fun y => ?_
  simp only [Finset.sum_range]
  rfl

end Tape

end TadDftd4
