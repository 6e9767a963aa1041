import Verif.Lemmas.Hessian
import Verif.Lemmas.AutogradWeights

/-!
# Second backward pass through the reference weights and C6 coefficients
-/

set_option linter.unusedSimpArgs false

open scoped Classical Topology

namespace TadDftd4

open Tensor

namespace Tape

variable {G : GradCfg} {w : ℝ} {Z r : ℕ} {cn q : Tape} {x c d : ℝ} {F H : ℝ → ℝ → ℝ}

theorem Tame2.tmp (hc : Tame2 cn x c) : Tame2 (tmp G w Z r cn) x (tmpV G w Z r c) := by
  unfold Tape.tmp tmpV tmpD4 tmpD4S
  have hd := hc.sub (Tame2.const (c := G.T.refcn Z r))
  cases G.kind
  · exact (hd.neg.mul hd).exp
  all_goals
    exact Tame2.sel (P := fun _ => 0 < G.T.refc Z r) ((hd.neg.mul (hd.mul Tame2.const)).exp) Tame2.const

/-- The Gaussian does not vanish or the weighting factor is one or at least two. -/
def PowOk2 (G : GradCfg) (w : ℝ) (Z : ℕ) (c : ℝ) : Prop :=
  G.kind = .d4 → (w = 1 ∨ 2 ≤ w) ∨ ∀ r < nref, 0 < tmpV G w Z r c

theorem PowOk2.fst (h : PowOk2 G w Z c) : PowOk G w Z c := fun hk => by
  rcases h hk with (h | h) | h
  · exact Or.inl h.ge
  · exact Or.inl (by linarith)
  · exact Or.inr h

theorem nat_one_or {i : ℕ} (hi : 1 ≤ i) : (i : ℝ) = 0 ∨ (i : ℝ) = 1 ∨ (2 : ℝ) ≤ i := by
  rcases hi.eq_or_lt with h | h
  · exact Or.inr (Or.inl (by exact_mod_cast h.symm))
  · exact Or.inr (Or.inr (by exact_mod_cast h))

theorem Tame2.powT (hc : Tame2 cn x c) (hr : r < nref) (h1 : PowOk2 G w Z c) {i : ℕ} (hi : 1 ≤ i) :
    Tame2 (powT G w Z r cn i) x (powV G w Z r c i) := by
  have ht := Tame2.tmp (G := G) (w := w) (Z := Z) (r := r) hc
  have h0 := tmpV_nonneg (G := G) (w := w) (Z := Z) (r := r) (c := c)
  have hi' : (1 : ℝ) ≤ i := by exact_mod_cast hi
  unfold Tape.powT powV
  unfold PowOk2 at h1
  cases hk : G.kind
  · refine ht.pow ?_
    rcases h1 hk with (h1 | h1) | h1
    · refine Or.inr ⟨h0, ?_⟩
      rw [h1, mul_one]
      exact nat_one_or hi
    · exact Or.inr ⟨h0, Or.inr (Or.inr (by nlinarith))⟩
    · exact Or.inl (h1 r hr)
  all_goals exact ht.pow (Or.inr ⟨h0, nat_one_or hi⟩)

theorem Tame2.expw (hc : Tame2 cn x c) (hr : r < nref) (h1 : PowOk2 G w Z c) :
    Tame2 (expw G w Z r cn) x (expwSel G.env G.T G.kind w Z c r) := by
  have ht := Tame2.tmp (G := G) (w := w) (Z := Z) (r := r) hc
  have hp := fun {i : ℕ} (hi : 1 ≤ i) => Tame2.powT (G := G) (w := w) (Z := Z) (r := r) hc hr h1 hi
  have p1 := hp (i := 1) le_rfl
  have p2 := hp (i := 2) (by norm_num)
  have p3 := hp (i := 3) (by norm_num)
  have z : Tame2 (Tape.const 0) x 0 := Tame2.const
  unfold Tape.expw
  refine (Tame2.sel (P := fun _ => 0 < G.T.refc Z r)
    (Tame2.sel (P := fun _ => G.T.refc Z r = 3) (((z.add p1).add p2).add p3)
      (Tame2.sel (P := fun _ => G.T.refc Z r = 1) (z.add p1) ht)) z).congr ?_
  by_cases hm : 0 < G.T.refc Z r
  · simp only [powV_eq hm, expwSel, expwD4, expwD4S]
    cases hk : G.kind <;> simp [hm, tmpV, hk]
  · simp only [expwSel, expwD4, expwD4S]
    cases hk : G.kind <;> simp [hm]

theorem Tame2.norm (hc : Tame2 cn x c) (h1 : PowOk2 G w Z c) :
    Tame2 (norm G w Z r cn) x (if 0 < G.T.refc Z r then normV G w Z c else tiny) := by
  unfold Tape.norm
  refine Tame2.sel (P := fun _ => 0 < G.T.refc Z r) ?_ Tame2.const
  refine (Tame2.sum fun s : Fin nref => Tame2.expw hc s.2 h1).congr ?_
  rw [normV, Finset.sum_range]

theorem Tame2.gwTemp (hc : Tame2 cn x c) (hr : r < nref) (h1 : PowOk2 G w Z c) (h2 : NormOk G w Z c) :
    ∃ v, Tame2 (gwTemp G w Z r cn) x v ∧
      gwTempOf G.T Z (expwSel G.env G.T G.kind w Z c) r = .fin v := by
  have hn := Tame2.norm (r := r) hc h1
  have h0 : (if 0 < G.T.refc Z r then normV G w Z c else tiny) ≠ 0 := by
    split_ifs with hm
    · exact h2 ⟨r, hr, hm⟩
    · exact tiny_pos.ne'
  refine ⟨_, (Tame2.expw hc hr h1).div hn h0, ?_⟩
  unfold gwTempOf
  rw [← normV, FP.div, if_pos h0]

theorem Tame2.gw (hc : Tame2 cn x c) (hr : r < nref) (h1 : PowOk2 G w Z c) (h2 : NormOk G w Z c) :
    Tame2 (gw G w Z r cn) x (gwOf G.env G.T Z (expwSel G.env G.T G.kind w Z c) r).toReal := by
  obtain ⟨v, hv, he⟩ := Tame2.gwTemp hc hr h1 h2
  unfold Tape.gw
  refine (Tame2.sel (P := fun y => ((Tape.gwTemp G w Z r cn).eval y).isExceptional G.env.fmax)
    (Tame2.sel (P := fun _ => G.T.refcn Z r = maxN (G.T.refcn Z) (nref - 1)) (Tame2.const (c := 1))
      (Tame2.const (c := 0))) hv).congr ?_
  rw [hv.eval, gwOf, he]
  split_ifs <;> rfl

theorem Tame2.zeta {gam qref : ℝ} (hq : Tame2 q x c) (h : c ≠ G.env.eps)
    (ho : Real.exp (gam * (1 - qref / (c - G.env.eps))) ≤ G.env.fmax) :
    Tame2 (zeta G gam qref q) x (zetaF G.env.eps G.ga gam qref c).toReal := by
  have hne : c - G.env.eps ≠ 0 := sub_ne_zero.2 h
  have h1 := ((Tame2.const (c := qref)).div (hq.sub Tame2.const) hne)
  unfold Tape.zeta
  refine (Tame2.sel (P := fun y => (q.eval y).gt 0)
    (((Tame2.const (c := G.ga)).mul ((Tame2.const (c := 1)).sub
      (((Tame2.const (c := gam)).mul ((Tame2.const (c := 1)).sub h1)).expo ho))).exp (fl := id))
    ((Tame2.const (c := G.ga)).exp (fl := id))).congr ?_
  rw [hq.eval, zetaF_fin hne]
  rfl

theorem Tame2.weight {Zp : ℕ} (hc : Tame2 cn x c) (hq : Tame2 q x d) (hr : r < nref)
    (h1 : PowOk2 G (G.wf Z Zp) Z c) (h2 : NormOk G (G.wf Z Zp) Z c) (h3 : ChargeOk G Z d) :
    Tame2 (weight G (G.wf Z Zp) Z r cn q) x (wtAt G.env G.T G.R ⟨Z, c, d⟩ Zp r) := by
  unfold Tape.weight wtAt wtOf zetaAt
  refine Tame2.mul ?_ (Tame2.gw hc hr h1 h2)
  exact Tame2.sel (P := fun _ => 0 < G.T.refc Z r) (Tame2.zeta (hq.add Tame2.const) h3.ne (h3.le r hr)) Tame2.const

/-! ## Derivatives -/

theorem Fine2.tmp (hfl : G.env.fl = id) (hc : Fine2 cn F) (hm : 0 < G.T.refc Z r) :
    Fine2 (tmp G w Z r cn) (fun s t => tmpV G w Z r (F s t)) := by
  unfold Tape.tmp tmpV tmpD4 tmpD4S
  have hd := hc.sub (Fine2.const (c := G.T.refcn Z r))
  rw [hfl]
  cases G.kind
  · exact (hd.neg.mul hd).exp
  all_goals
    simp only [hm, if_true, id]
    exact Fine2.sel_true ((hd.neg.mul (hd.mul Fine2.const)).exp) (Tame2.const (c := 0))
      (.of_forall fun _ => trivial)

theorem powOk2_id (hfl : G.env.fl = id) : PowOk2 G w Z c :=
  fun hk => Or.inr fun _ _ => tmpV_pos hfl (Or.inl hk)

theorem Fine2.powT (hfl : G.env.fl = id) (hc : Fine2 cn F) (hm : 0 < G.T.refc Z r) {i : ℕ} :
    Fine2 (powT G w Z r cn i) (fun s t => powV G w Z r (F s t) i) := by
  have ht := Fine2.tmp (w := w) hfl hc hm
  have h0 := tmpV_pos (w := w) (c := F 0 0) hfl (Or.inr hm)
  unfold Tape.powT powV
  rw [hfl]
  cases hk : G.kind <;> exact ht.pow h0

theorem Fine2.expw (hfl : G.env.fl = id) (hc : Fine2 cn F) (hr : r < nref) :
    Fine2 (expw G w Z r cn) (fun s t => expwSel G.env G.T G.kind w Z (F s t) r) := by
  by_cases hm : 0 < G.T.refc Z r
  · have ht := Fine2.tmp (w := w) hfl hc hm
    have hp := fun {i : ℕ} => Fine2.powT (w := w) (i := i) hfl hc hm
    have z : Fine2 (Tape.const 0) (fun _ _ => 0) := Fine2.const
    unfold Tape.expw
    refine (Fine2.sel_const (Fine2.sel_const (((z.add (hp (i := 1))).add (hp (i := 2))).add
      (hp (i := 3))) (Fine2.sel_const (z.add (hp (i := 1))) ht)) z).congr' fun s t => ?_
    simp only [powV_eq hm, expwSel, expwD4, expwD4S]
    cases hk : G.kind <;> simp [hm, tmpV, hk]
  · have hz : ∀ c, expwSel G.env G.T G.kind w Z c r = 0 := by
      intro c
      simp only [expwSel, expwD4, expwD4S, hm, if_false]
      cases G.kind <;> rfl
    have p := fun {i : ℕ} (hi : 1 ≤ i) =>
      Tame2.powT (G := G) (w := w) (Z := Z) (r := r) hc.tame hr (powOk2_id hfl) hi
    have p1 := p (i := 1) le_rfl
    have p2 := p (i := 2) (by norm_num)
    have p3 := p (i := 3) (by norm_num)
    have z : Tame2 (Tape.const 0) 0 0 := Tame2.const
    unfold Tape.expw
    refine (Fine2.sel_false (P := fun _ => 0 < G.T.refc Z r)
      (Tame2.sel (P := fun _ => G.T.refc Z r = 3) (((z.add p1).add p2).add p3)
        (Tame2.sel (P := fun _ => G.T.refc Z r = 1) (z.add p1) (Tame2.tmp hc.tame)))
      (Fine2.const (c := 0)) (.of_forall fun _ => hm)).congr' fun s t => (hz _).symm

theorem Fine2.gwTemp (hfl : G.env.fl = id) (hc : Fine2 cn F) (hr : r < nref) :
    ∃ v : ℝ → ℝ → ℝ, Fine2 (gwTemp G w Z r cn) v ∧ (∀ s t, v s t ≤ 1) ∧
      ∀ s t, gwTempOf G.T Z (expwSel G.env G.T G.kind w Z (F s t)) r = .fin (v s t) := by
  have hn : Fine2 (norm G w Z r cn)
      (fun s t => if 0 < G.T.refc Z r then normV G w Z (F s t) else tiny) := by
    unfold Tape.norm
    refine Fine2.sel_const ?_ Fine2.const
    refine (Fine2.sum fun s : Fin nref => Fine2.expw hfl hc s.2).congr' fun s t => ?_
    rw [normV, Finset.sum_range]
  have h0 : ∀ s t, 0 < (if 0 < G.T.refc Z r then normV G w Z (F s t) else tiny) := by
    intro s t
    split_ifs with hm
    · exact normV_pos hfl ⟨r, hr, hm⟩
    · exact tiny_pos
  refine ⟨_, (Fine2.expw hfl hc hr).div hn (h0 0 0).ne', fun s t => ?_, fun s t => ?_⟩
  · refine div_le_one_of_le₀ ?_ (h0 s t).le
    split_ifs with hm
    · exact Finset.single_le_sum (f := fun k => expwSel G.env G.T G.kind w Z (F s t) k)
        (fun _ _ => expwSel_nonneg) (Finset.mem_range.2 hr)
    · have hz : expwSel G.env G.T G.kind w Z (F s t) r = 0 := by
        simp only [expwSel, expwD4, expwD4S, hm, if_false]
        cases G.kind <;> rfl
      rw [hz]
      exact tiny_pos.le
  · unfold gwTempOf
    rw [← normV, FP.div, if_pos (h0 s t).ne']

theorem Fine2.gw (hfl : G.env.fl = id) (hc : Fine2 cn F) (hr : r < nref) :
    Fine2 (gw G w Z r cn)
      (fun s t => (gwOf G.env G.T Z (expwSel G.env G.T G.kind w Z (F s t)) r).toReal) := by
  obtain ⟨v, hv, h1, he⟩ := Fine2.gwTemp (G := G) (w := w) (Z := Z) hfl hc hr
  have hno : ∀ s t, ¬ FP.isExceptional G.env.fmax (.fin (v s t)) := fun s t =>
    not_lt.2 ((h1 s t).trans G.env.one_le_fmax)
  unfold Tape.gw
  have := Fine2.sel_false (P := fun y => ((Tape.gwTemp G w Z r cn).eval y).isExceptional G.env.fmax)
    (Tame2.sel (P := fun _ => G.T.refcn Z r = maxN (G.T.refcn Z) (nref - 1))
      (Tame2.const (c := 1)) (Tame2.const (c := 0))) hv
    (hv.1.mono fun y h => by rw [h]; exact hno 0 y)
  refine this.congr' fun s t => ?_
  rw [gwOf, he, if_neg (hno s t)]
  rfl

theorem Fine2.zeta {gam qref : ℝ} (hq : Fine2 q F) (h : G.env.eps < F 0 0) (hg : 0 ≤ gam)
    (hr : 0 ≤ qref) (ho : Real.exp gam ≤ G.env.fmax) :
    Fine2 (zeta G gam qref q) (fun s t => (zetaF G.env.eps G.ga gam qref (F s t)).toReal) := by
  have hne : F 0 0 - G.env.eps ≠ 0 := (sub_pos.2 h).ne'
  have h1 := (Fine2.const (c := qref)).div (hq.sub (Fine2.const (c := G.env.eps))) hne
  have hev := continuousAt_const.eventually_lt hq.continuousAt h
  unfold Tape.zeta
  have := Fine2.sel_true (P := fun y => (q.eval y).gt 0)
    (((Fine2.const (c := G.ga)).mul ((Fine2.const (c := 1)).sub
      (((Fine2.const (c := gam)).mul ((Fine2.const (c := 1)).sub h1)).expo
        (exp_scale_le hg hr (sub_pos.2 h) ho) (hev.mono fun y hy =>
          exp_scale_le hg hr (sub_pos.2 hy) ho)))).exp)
    ((Tame2.const (c := G.ga)).exp (fl := id)) (by
      filter_upwards [hq.1, hev] with y h1 h2
      rw [h1]
      exact G.env.eps_pos.trans h2)
  refine this.congr ?_
  filter_upwards [hq.eventually (eventually_gt_nhds h)] with t ht
  filter_upwards [ht] with s hy
  have hne' : F s t - G.env.eps ≠ 0 := (sub_pos.2 hy).ne'
  have hp : 0 < F s t := G.env.eps_pos.trans hy
  rw [zetaF_fin hne', if_pos hp]
  rfl

theorem Fine2.weight {Zp : ℕ} (hfl : G.env.fl = id) (hc : Fine2 cn F) (hq : Fine2 q H)
    (hr : r < nref) (h3 : ChargeOk G Z (H 0 0)) (h5 : ScaleOk G Z) (hZ : 0 < G.T.refc Z r → Z ≠ 0)
    (h4 : 0 < G.T.refc Z r → G.env.eps < H 0 0 + G.T.zeff Z) :
    Fine2 (weight G (G.wf Z Zp) Z r cn q)
      (fun s t => wtAt G.env G.T G.R ⟨Z, F s t, H s t⟩ Zp r) := by
  unfold Tape.weight wtAt wtOf zetaAt
  refine Fine2.mul ?_ (Fine2.gw hfl hc hr)
  by_cases hm : 0 < G.T.refc Z r
  · refine Fine2.congr' (Fine2.sel_true (Fine2.zeta (hq.add (Fine2.const (c := G.T.zeff Z))) (h4 hm)
      h5.gam (h5.qref (hZ hm) r hr) h5.le)
      (Tame2.const (c := 0)) (.of_forall fun _ => hm)) fun s t => ?_
    rw [if_pos hm]
    rfl
  · refine Fine2.congr' (Fine2.sel_false (P := fun _ => 0 < G.T.refc Z r)
      (Tame2.zeta (gam := G.T.gam Z * G.gc)
      (qref := Tape.refq G Z r + G.T.zeff Z) (hq.tame.add (Tame2.const (c := G.T.zeff Z))) h3.ne
        (h3.le r hr))
      (Fine2.const (c := 0)) (.of_forall fun _ => hm)) fun s t => ?_
    rw [if_neg hm]

/-! ## C6 -/

variable {n : ℕ} {X : GradSys n} {Q : Fin n → Tape} {i j : Fin n}

/-- Conditions for finite second derivatives of the weights of atom `i` with partner `j`. -/
structure WOk2 (G : GradCfg) (X : GradSys n) (x : ℝ) (i j : Fin n) (q : ℝ) : Prop where
  pow : PowOk2 G (G.wf (X.Z i) (X.Z j)) (X.Z i) (X.cnFn i x)
  norm : NormOk G (G.wf (X.Z i) (X.Z j)) (X.Z i) (X.cnFn i x)
  charge : ChargeOk G (X.Z i) q

theorem Tame2.c6 {rc : ℕ → ℕ → ℕ → ℕ → ℝ} (hrc : rc = rc6At G.env G.T G.ga G.gc G.rq) {d : Fin n → ℝ}
    (hq : ∀ i, Tame2 (Q i) x (d i)) (hi : WOk2 G X x i j (d i)) (hj : WOk2 G X x j i (d j)) :
    Tame2 (c6 G X rc Q i j) x (c6At G.env G.T G.R ⟨X.Z i, X.cnFn i x, d i⟩ ⟨X.Z j, X.cnFn j x, d j⟩) := by
  unfold Tape.c6 c6At c6Of
  subst hrc
  refine (Tame2.sum fun a : Fin nref => Tame2.sum fun b : Fin nref => Tame2.const.mul
    ((Tame2.weight Tame2.input (hq i) a.2 hi.pow hi.norm hi.charge).mul
      (Tame2.weight Tame2.input (hq j) b.2 hj.pow hj.norm hj.charge))).congr ?_
  simp only [Finset.sum_range]
  rfl

theorem Fine2.c6 {rc : ℕ → ℕ → ℕ → ℕ → ℝ} (hrc : rc = rc6At G.env G.T G.ga G.gc G.rq)
    (hfl : G.env.fl = id) {c d : Fin n → ℝ → ℝ → ℝ} (hc : ∀ i, Fine2 (X.cn i) (c i))
    (h5 : ∀ i, ScaleOk G (X.Z i)) (hZ : ∀ r < nref, G.T.refc 0 r = 0)
    (hq : ∀ i, Fine2 (Q i) (d i)) (h3 : ∀ i, ChargeOk G (X.Z i) (d i 0 0))
    (h4 : ∀ i, (∃ r < nref, 0 < G.T.refc (X.Z i) r) → G.env.eps < d i 0 0 + G.T.zeff (X.Z i)) :
    Fine2 (c6 G X rc Q i j) (fun s t => c6At G.env G.T G.R ⟨X.Z i, c i s t, d i s t⟩
      ⟨X.Z j, c j s t, d j s t⟩) := by
  unfold Tape.c6 c6At c6Of
  subst hrc
  have hW : ∀ (i j : Fin n) (a : Fin nref),
      Fine2 (Tape.weight G (G.wf (X.Z i) (X.Z j)) (X.Z i) a (X.cn i) (Q i))
      (fun s t => wtAt G.env G.T G.R ⟨X.Z i, c i s t, d i s t⟩ (X.Z j) a) := fun i j a =>
    Fine2.weight hfl (hc i) (hq i) a.2 (h3 i) (h5 i)
      (fun hm h0 => by rw [h0, hZ a a.2] at hm; exact lt_irrefl _ hm) fun hm => h4 i ⟨a, a.2, hm⟩
  refine (Fine2.sum fun a : Fin nref => Fine2.sum fun b : Fin nref => Fine2.const.mul
    ((hW i j a).mul (hW j i b))).congr' fun s t => ?_
  simp only [Finset.sum_range]
  rfl

end Tape

end TadDftd4
