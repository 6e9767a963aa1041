import Verif.Lemmas.HessianEnergy
import Verif.Lemmas.AutogradFinite

/-!
# Second backward pass through `dispersion2` with any damping function
-/

set_option linter.unusedSimpArgs false

open scoped Classical Topology

namespace TadDftd4

open Tensor

namespace Tape

variable {a b g : Tape} {f : ℝ → ℝ} {x c c' u v w p : ℝ} {F F' : ℝ → ℝ → ℝ}

theorem Dead.log (ha : Dead a x) : Dead (log a) x := fun g => ha _

/-- Nothing depends on the inputs: both backward passes pass nothing on, whatever arrives. -/
def Steady2 (e : Tape) (x : ℝ) : Prop := Dead e x ∧ ∀ g, Lin (backT e g) x 0 0

namespace Steady2

theorem const : Steady2 (const c) x := ⟨Dead.const, fun _ => Lin.const⟩
theorem frozen : Steady2 (frozen f) x := ⟨Dead.frozen, fun _ => Lin.const⟩
theorem neg (ha : Steady2 a x) : Steady2 (neg a) x := ⟨ha.1.neg, fun _ => ha.2 _⟩
theorem add (ha : Steady2 a x) (hb : Steady2 b x) : Steady2 (add a b) x :=
  ⟨ha.1.add hb.1, fun _ => ((ha.2 _).add (hb.2 _)).congr (by simp) (by simp)⟩
theorem mul (ha : Steady2 a x) (hb : Steady2 b x) : Steady2 (mul a b) x :=
  ⟨ha.1.mul hb.1, fun _ => ((ha.2 _).add (hb.2 _)).congr (by simp) (by simp)⟩
theorem div (ha : Steady2 a x) (hb : Steady2 b x) : Steady2 (div a b) x :=
  ⟨ha.1.div hb.1, fun _ => ((ha.2 _).add (hb.2 _)).congr (by simp) (by simp)⟩

theorem jet (h : Steady2 a x) (he : a.eval x = .fin c) : Jet a x c 0 0 0 :=
  ⟨⟨he, fun g => by rw [h.1, mul_zero]⟩, fun g cg ug _ => (h.2 g).congr (by simp) (by simp)⟩

theorem tame (h : Steady2 a x) (he : a.eval x = .fin c) : Tame2 a x c := ⟨_, _, _, h.jet he⟩

theorem fine (h : Steady2 a 0) (he : ∀ y, a.eval y = .fin c) : Fine2 a fun _ _ => c :=
  ⟨.of_forall he, 0, 0, 0, h.jet (he 0), HasJet.const⟩

end Steady2

/-- The graph depends on the inputs only through branches that are not selected: the second backward pass
through its own backward pass passes nothing on if nothing flows through what arrives. -/
def Dead2 (e : Tape) (x : ℝ) : Prop := Dead e x ∧ ∀ g, Dead g x → Lin (backT e g) x 0 0

namespace Dead2

theorem of_still (h : Steady2 a x) : Dead2 a x := ⟨h.1, fun g _ => h.2 g⟩
theorem const : Dead2 (const c) x := of_still Steady2.const
theorem neg (ha : Dead2 a x) : Dead2 (neg a) x := ⟨ha.1.neg, fun _ hg => ha.2 _ hg.neg⟩
theorem add (ha : Dead2 a x) (hb : Dead2 b x) : Dead2 (add a b) x :=
  ⟨ha.1.add hb.1, fun _ hg => ((ha.2 _ hg).add (hb.2 _ hg)).congr (by simp) (by simp)⟩
theorem mul (ha : Dead2 a x) (hb : Dead2 b x) : Dead2 (mul a b) x :=
  ⟨ha.1.mul hb.1, fun _ hg => ((ha.2 _ (hg.mul hb.1)).add (hb.2 _ (hg.mul ha.1))).congr (by simp) (by simp)⟩
theorem div (ha : Dead2 a x) (hb : Dead2 b x) : Dead2 (div a b) x :=
  ⟨ha.1.div hb.1, fun _ hg => ((ha.2 _ (hg.div hb.1)).add
    (hb.2 _ (hg.neg.mul ((ha.1.div hb.1).div hb.1)))).congr (by simp) (by simp)⟩
theorem pow {fl : ℝ → ℝ} {p : ℝ} (ha : Dead2 a x) : Dead2 (pow fl a p) x :=
  ⟨ha.1.pow, fun _ hg => ha.2 _ (by
    split
    · exact Dead.const
    · exact hg.mul (Dead.const.mul ha.1.pow))⟩
theorem npow {k : ℕ} (ha : Dead2 a x) : Dead2 (npow a k) x :=
  ⟨ha.1.npow, fun _ hg => ha.2 _ (hg.mul (Dead.const.mul ha.1.npow))⟩
theorem tpow (ha : Dead2 a x) (hb : Dead2 b x) : Dead2 (tpow a b) x :=
  ⟨ha.1.tpow hb.1, fun _ hg => ((ha.2 _ (Dead.const.sel (hg.mul (hb.1.mul (ha.1.tpow
    (hb.1.sub Dead.const)))))).add (hb.2 _ ((hg.mul Dead.const).sel (hg.mul ((ha.1.tpow hb.1).mul
      ha.1.log))))).congr (by simp) (by simp)⟩
theorem sel {P : ℝ → Prop} (ha : Dead2 a x) (hb : Dead2 b x) : Dead2 (sel P a b) x :=
  ⟨ha.1.sel hb.1, fun _ hg => ((ha.2 _ (hg.sel Dead.const)).add (hb.2 _ (Dead.const.sel hg))).congr
    (by simp) (by simp)⟩
theorem sdiv {env : Env} (ha : Dead2 a x) (hb : Dead2 b x) : Dead2 (sdiv env a b) x :=
  ha.div (hb.sel const)

/-- A branch that is not selected. -/
theorem masked {P : ℝ → Prop} (ha : Tame2 a x c) (hb : Steady2 b x) (hP : ¬ P x) : Dead2 (Tape.sel P a b) x := by
  obtain ⟨u, v, w, ha⟩ := ha
  refine ⟨fun g => ?_, fun g hg => ?_⟩
  · have := ha.1.2 0
    rw [zero_mul] at this
    simp [Tape.back, hP, this, hb.1 _, FP.add]
  · have hl : Lin (Tape.sel P g (Tape.const 0)) x 0 0 :=
      ⟨by simp [Tape.eval, hP], fun γ => by simp [Tape.back, hP, hg _, FP.add]⟩
    exact ((ha.2 _ _ _ hl).add (hb.2 _)).congr (by simp) (by simp)

theorem jet_sel {P : ℝ → Prop} (ha : Dead2 a x) (hb : Jet b x c u v w) (hP : ¬ P x) :
    Jet (Tape.sel P a b) x c u v w := by
  refine ⟨⟨by simp [Tape.eval, hP, hb.1.1], fun g => by simp [Tape.back, hP, hb.1.2, ha.1 _, FP.add]⟩,
    fun g cg ug hg => ?_⟩
  have hd : Dead (Tape.sel P g (Tape.const 0)) x := fun γ => by
    have := hg.2 0
    rw [zero_mul] at this
    simp [Tape.back, hP, this, FP.add]
  have hl := Lin.sel (P := P) (Lin.const (c := 0) (x := x)) hg
  simp only [hP, if_false] at hl
  exact ((ha.2 _ hd).add (hb.2 _ _ _ hl)).congr (by simp) (by simp)

theorem fine_sel {P : ℝ → Prop} (ha : Dead2 a 0) (hb : Fine2 b F) (hP : ∀ᶠ t in 𝓝 0, ¬ P t) :
    Fine2 (Tape.sel P a b) F := by
  obtain ⟨h1, u, v, w, h2, h3⟩ := hb
  refine ⟨?_, _, _, _, ha.jet_sel h2 hP.self_of_nhds, h3⟩
  filter_upwards [h1, hP] with y ha hP
  simp [Tape.eval, hP, ha]

theorem tame_sel {P : ℝ → Prop} (ha : Dead2 a x) (hb : Tame2 b x c) (hP : ¬ P x) :
    Tame2 (Tape.sel P a b) x c := by
  obtain ⟨u, v, w, hb⟩ := hb
  exact ⟨_, _, _, ha.jet_sel hb hP⟩

end Dead2

/-! ## Powers with a tensor as exponent -/

theorem Lin.tpow (ha : Lin a x c u) (hb : Dead b x) (he : b.eval x = .fin p) (h : Lin.PowDef c p)
    (h' : p = 0 ∨ Lin.PowDef c (p - 1)) : Lin (tpow a b) x (c ^ p) (p * c ^ (p - 1) * u) := by
  refine ⟨?_, fun g => ?_⟩
  · simp only [Tape.eval, ha.1, he, FP.tpow]
    exact h.eval
  · simp only [Tape.back, ha.1, he, hb _, FP.powBase]
    split_ifs with hp
    · simp [ha.2, hp, FP.add]
    · rw [(h'.resolve_left hp).eval]
      simp only [FP.mul, ha.2, FP.add, id]
      congr 1
      ring

/-- The exponent is a constant. -/
theorem Jet.tpow (ha : Jet a x c u v w) (hb : Steady2 b x) (he : b.eval x = .fin p)
    (h : 0 < c ∨ (c = 0 ∧ (p = 1 ∨ 2 ≤ p))) :
    Jet (tpow a b) x (c ^ p) (p * c ^ (p - 1) * u) (p * c ^ (p - 1) * v)
      (p * ((p - 1) * c ^ (p - 1 - 1)) * u * v + p * c ^ (p - 1) * w) := by
  have h0 : Lin.PowDef c p := h.imp id fun h => ⟨h.1.ge, by rcases h.2 with h | h <;> linarith⟩
  have h1 : Lin.PowDef c (p - 1) := h.imp id fun h => ⟨h.1.ge, by rcases h.2 with h | h <;> linarith⟩
  have h2 : p - 1 = 0 ∨ Lin.PowDef c (p - 1 - 1) := by
    rcases h with h | ⟨h, hp | hp⟩
    · exact Or.inr (Or.inl h)
    · exact Or.inl (by linarith)
    · exact Or.inr (Or.inr ⟨h.ge, by linarith⟩)
  have hb1 : Lin (Tape.sub b (Tape.const 1)) x (p - 1) 0 :=
    ((hb.jet he).sub (Jet.const (c := 1))).1.congr rfl (by simp)
  have hd1 : Dead (Tape.sub b (Tape.const 1)) x := hb.1.sub Dead.const
  refine ⟨ha.1.tpow hb.1 he h0 (Or.inr h1), fun g cg ug hg => ?_⟩
  have hm := hg.mul ((hb.jet he).1.mul (ha.1.tpow hd1 hb1.1 h1 h2))
  have hs := Lin.sel (P := fun y => ¬ (b.eval y).ne0) (Lin.const (c := 0) (x := x)) hm
  have hP : (¬ (b.eval x).ne0) ↔ p = 0 := by simp [he, FP.ne0]
  refine ((ha.2 _ _ _ hs).add (hb.2 _)).congr ?_ ?_
  · by_cases hp : p = 0
    · rw [if_pos (hP.2 hp)]
      simp [hp]
    · rw [if_neg (fun h => hp (hP.1 h))]
      ring
  · by_cases hp : p = 0
    · rw [if_pos (hP.2 hp), if_pos (hP.2 hp)]
      simp [hp]
    · rw [if_neg (fun h => hp (hP.1 h)), if_neg (fun h => hp (hP.1 h))]
      ring

theorem Tame2.tpow (ha : Tame2 a x c) (hb : Steady2 b x) (he : b.eval x = .fin p)
    (h : 0 < c ∨ (c = 0 ∧ (p = 1 ∨ 2 ≤ p))) : Tame2 (tpow a b) x (c ^ p) := by
  obtain ⟨u, v, w, ha⟩ := ha
  exact ⟨_, _, _, ha.tpow hb he h⟩

theorem Fine2.tpow (ha : Fine2 a F) (hb : Steady2 b 0) (he : ∀ y, b.eval y = .fin p)
    (h : 0 < F 0 0 ∨ ((∀ s t, F s t = 0) ∧ (p = 1 ∨ 2 ≤ p))) :
    Fine2 (Tape.tpow a b) (fun s t => F s t ^ p) := by
  have hj : 0 < F 0 0 ∨ (F 0 0 = 0 ∧ (p = 1 ∨ 2 ≤ p)) := h.imp_right fun h => ⟨h.1 0 0, h.2⟩
  have hc : ContinuousAt (F 0) 0 := ha.continuousAt
  obtain ⟨h1, u, v, w, h2, h3⟩ := ha
  rcases h with h | ⟨hz, hp⟩
  · refine ⟨?_, _, _, _, h2.tpow hb (he 0) hj, h3.comp (φ := fun z => z ^ p)
      (φ' := fun z => p * z ^ (p - 1)) ?_ ?_⟩
    · filter_upwards [h1, continuousAt_const.eventually_lt hc h] with y ha hc
      simp [Tape.eval, ha, he, FP.tpow, FP.pow, hc]
    · filter_upwards [eventually_gt_nhds h] with z hz
      exact Real.hasDerivAt_rpow_const (Or.inl hz.ne')
    · exact (Real.hasDerivAt_rpow_const (p := p - 1) (Or.inl h.ne')).const_mul p
  · have hz' : F = fun _ _ => 0 := funext fun s => funext fun t => hz s t
    subst hz'
    have hp0 : p ≠ 0 := by rcases hp with h | h <;> intro h0 <;> linarith
    have hpp : 0 ≤ p := by rcases hp with h | h <;> linarith
    obtain ⟨rfl, rfl, rfl⟩ := h3.null
    refine ⟨?_, 0, 0, 0, (h2.tpow hb (he 0) hj).congr rfl (by ring) (by ring) (by ring), ?_⟩
    · filter_upwards [h1] with y ha
      simp [Tape.eval, ha, he, FP.tpow, FP.pow, hpp, hp0, Real.zero_rpow hp0]
    · simp only [Real.zero_rpow hp0]
      exact HasJet.const

theorem Tame2.sdiv_any {env : Env} (ha : Tame2 a x c) (hb : Tame2 b x c') :
    Tame2 (Tape.sdiv env a b) x (env.sdiv c c') := by
  by_cases h : c' = 0
  · have hs : Tame2 (Tape.sel (fun y => (b.eval y).ne0) b (Tape.const env.eps)) x env.eps := by
      refine (Tame2.sel (P := fun y => (b.eval y).ne0) hb (Tame2.const (c := env.eps))).congr ?_
      rw [if_neg]
      simp [hb.eval, FP.ne0, h]
    rw [Env.sdiv, if_pos h]
    exact ha.div hs env.eps_pos.ne'
  · rw [Env.sdiv, if_neg h]
    exact ha.sdiv hb h

namespace Pair

section
variable {env : Env} {d : Damping} {k : ℕ} {D : Tape} {V : DName → Tape} {R D0 : ℝ} {v : DName → ℝ}

theorem dead2_damp (hD : Dead2 D x) (hV : ∀ m, Steady2 (V m) x) : Dead2 (damp env d k D R V) x := by
  have hV := fun m => Dead2.of_still (hV m)
  have hrs : Dead2 (rsN k V) x := by unfold rsN; split <;> exact hV _
  have ha : Dead2 (alpN k V) x := by
    unfold alpN
    split
    · exact (hV _).add Dead2.const
    · exact hV _
  unfold damp
  cases d with
  | rational =>
    exact Dead2.const.div (hD.npow.add (((hV _).mul Dead2.const).add (hV _)).npow)
  | zero =>
    exact (Dead2.const.div (Dead2.const.add (Dead2.const.mul
      ((hrs.mul (hD.sdiv Dead2.const)).tpow ha)))).sdiv hD.pow
  | mzero =>
    exact (Dead2.const.div (Dead2.const.add (Dead2.const.mul
      (((hD.div (hrs.mul Dead2.const)).add ((hV _).mul Dead2.const)).tpow ha.neg)))).sdiv hD.pow
  | op =>
    exact (hD.tpow (hV _)).div (((hD.tpow (hV _)).mul hD.pow).add
      ((((((hV _).mul Dead2.const).add (hV _))).tpow (hV _)).mul hD.pow))

theorem still_rsN (hV : ∀ m, Steady2 (V m) x) : Steady2 (rsN k V) x := by unfold rsN; split <;> exact hV _

theorem still_alpN (hV : ∀ m, Steady2 (V m) x) : Steady2 (alpN k V) x := by
  unfold alpN
  split
  · exact (hV _).add Steady2.const
  · exact hV _

theorem eval_rsN {y : ℝ} (he : ∀ m, (V m).eval y = .fin (v m)) :
    (rsN k V).eval y = .fin (if k = 6 then v .rs6 else v .rs8) := by
  unfold rsN; split <;> exact he _

theorem eval_alpN {y : ℝ} (he : ∀ m, (V m).eval y = .fin (v m)) :
    (alpN k V).eval y = .fin (if k = 8 then v .alp + 2 else v .alp) := by
  unfold alpN
  split
  · simp [Tape.eval, he, FP.add]
  · exact he _

theorem tame2_damp (hk : Even k) (hD : Tame2 D x D0) (hV : ∀ m, Steady2 (V m) x)
    (he : ∀ m, (V m).eval x = .fin (v m)) (h0 : 0 < D0) (hok : DampAt d k v R)
    (hfl : d ≠ .rational → env.fl (D0 ^ k) = D0 ^ k) :
    Tame2 (damp env d k D R V) x (dampV env d k v D0 R) := by
  have hT : ∀ m, Tame2 (V m) x (v m) := fun m => (hV m).tame (he m)
  have hrs := (still_rsN (k := k) hV).tame (eval_rsN he)
  have ha := still_alpN (k := k) hV
  have hae := eval_alpN (k := k) he
  have hpw : d ≠ .rational → Tame2 (Tape.pow env.fl D k) x (D0 ^ k) := fun hd =>
    (hD.pow (fl := env.fl) (p := k) (Or.inl h0)).congr (by rw [Real.rpow_natCast, hfl hd])
  unfold damp dampV
  cases d with
  | rational =>
    refine Tame2.const.div (hD.npow.add (((hT _).mul Tame2.const).add (hT _)).npow) ?_
    exact (add_pos_of_pos_of_nonneg (pow_pos h0 k) (hk.pow_nonneg _)).ne'
  | zero =>
    obtain ⟨h6, hR⟩ := hok
    have hp : 0 < (if k = 6 then v .rs6 else v .rs8) * env.sdiv D0 R := mul_pos h6 (sdiv_pos h0 hR)
    have ht := (hrs.mul (hD.sdiv_any (env := env) (Tame2.const (c := R)))).tpow ha hae (Or.inl hp)
    exact (Tame2.const.div (Tame2.const.add (Tame2.const.mul ht)) (fden_pos hp).ne').sdiv_any (hpw (by simp))
  | mzero =>
    obtain ⟨h6, hb, hR⟩ := hok
    have hr : 0 < (if k = 6 then v .rs6 else v .rs8) * R := mul_pos h6 hR
    have hp : 0 < D0 / ((if k = 6 then v .rs6 else v .rs8) * R) + v .bet * R := by positivity
    have ht := ((hD.div (hrs.mul (Tame2.const (c := R))) hr.ne').add
      ((hT .bet).mul (Tame2.const (c := R)))).tpow ha.neg
        (p := -(if k = 8 then v .alp + 2 else v .alp)) (by simp [Tape.eval, hae, FP.neg]) (Or.inl hp)
    exact (Tame2.const.div (Tame2.const.add (Tame2.const.mul ht)) (fden_pos hp).ne').sdiv_any (hpw (by simp))
  | op =>
    have hrad : 0 < v .a1 * √R + v .a2 := hok
    have hab := (((hT .a1).mul (Tame2.const (c := √R))).add (hT .a2)).tpow (hV .bet) (he _) (Or.inl hrad)
    have hrb := hD.tpow (hV .bet) (he _) (Or.inl h0)
    have hpw := hpw (by simp)
    refine hrb.div ((hrb.mul hpw).add (hab.mul hpw)) ?_
    have := Real.rpow_pos_of_pos h0 (v .bet)
    have := Real.rpow_pos_of_pos hrad (v .bet)
    positivity

/-- The second backward pass through the damping function, parameters being constants. -/
theorem fine2_damp (hfl : env.fl = id) (hk : Even k) (hD : Fine2 D F) (hV : ∀ m, Steady2 (V m) 0)
    (he : ∀ m y, (V m).eval y = .fin (v m)) (h0 : 0 < F 0 0) (hok : DampAt d k v R) :
    Fine2 (damp env d k D R V) (fun s t => dampV env d k v (F s t) R) := by
  have hT : ∀ m, Fine2 (V m) fun _ _ => v m := fun m => (hV m).fine (he m)
  have hrs := (still_rsN (k := k) hV).fine fun y => eval_rsN fun m => he m y
  have ha := still_alpN (k := k) hV
  have hae := fun y => eval_alpN (k := k) fun m => he m y
  have hpw : Fine2 (Tape.pow env.fl D k) (fun s t => F s t ^ k) := by
    rw [hfl]
    exact (hD.pow (p := k) h0).congr' fun s t => Real.rpow_natCast _ _
  have hpos := hD.eventually (eventually_gt_nhds h0)
  unfold damp dampV
  cases d with
  | rational =>
    refine Fine2.const.div (hD.npow.add (((hT _).mul Fine2.const).add (hT _)).npow) ?_
    exact (add_pos_of_pos_of_nonneg (pow_pos h0 k) (hk.pow_nonneg _)).ne'
  | zero =>
    obtain ⟨h6, hR⟩ := hok
    have hp : 0 < (if k = 6 then v .rs6 else v .rs8) * env.sdiv (F 0 0) R :=
      mul_pos h6 (sdiv_pos h0 hR)
    have hs : Fine2 (Tape.sdiv env D (Tape.const R)) (fun s t => env.sdiv (F s t) R) := by
      have hc : Fine2 (Tape.sel (fun y => ((Tape.const R).eval y).ne0) (Tape.const R)
          (Tape.const env.eps)) (fun _ _ => if R = 0 then env.eps else R) := by
        refine (Fine2.sel_const (P := R ≠ 0) (Fine2.const (c := R)) (Fine2.const (c := env.eps))).congr'
          fun s t => ?_
        by_cases hR : R = 0 <;> simp [hR]
      refine (hD.div hc ?_).congr' fun s t => rfl
      split
      · exact env.eps_pos.ne'
      · assumption
    have ht := (hrs.mul hs).tpow ha hae (Or.inl hp)
    refine ((Fine2.const.div (Fine2.const.add (Fine2.const.mul ht)) (fden_pos hp).ne').sdiv hpw
      (pow_pos h0 k).ne').congr ?_
    filter_upwards [hpos] with t ht
    filter_upwards [ht] with s hy
    have hy' : F s t ^ k ≠ 0 := (pow_pos hy k).ne'
    conv_rhs => rw [Env.sdiv, if_neg hy']
    rfl
  | mzero =>
    obtain ⟨h6, hb, hR⟩ := hok
    have hr : 0 < (if k = 6 then v .rs6 else v .rs8) * R := mul_pos h6 hR
    have hp : 0 < F 0 0 / ((if k = 6 then v .rs6 else v .rs8) * R) + v .bet * R := by positivity
    have ht := ((hD.div (hrs.mul (Fine2.const (c := R))) hr.ne').add
      ((hT .bet).mul (Fine2.const (c := R)))).tpow ha.neg
        (p := -(if k = 8 then v .alp + 2 else v .alp)) (fun y => by simp [Tape.eval, hae, FP.neg]) (Or.inl hp)
    refine ((Fine2.const.div (Fine2.const.add (Fine2.const.mul ht)) (fden_pos hp).ne').sdiv hpw
      (pow_pos h0 k).ne').congr ?_
    filter_upwards [hpos] with t ht
    filter_upwards [ht] with s hy
    have hy' : F s t ^ k ≠ 0 := (pow_pos hy k).ne'
    conv_rhs => rw [Env.sdiv, if_neg hy']
    rfl
  | op =>
    have hrad : 0 < v .a1 * √R + v .a2 := hok
    have hab := (((hT .a1).mul (Fine2.const (c := √R))).add (hT .a2)).tpow (hV .bet) (he _) (Or.inl hrad)
    have hrb := hD.tpow (hV .bet) (he _) (Or.inl h0)
    refine hrb.div ((hrb.mul hpw).add (hab.mul hpw)) ?_
    have := Real.rpow_pos_of_pos h0 (v .bet)
    have := Real.rpow_pos_of_pos hrad (v .bet)
    positivity

end

/-! ## Energies -/

section
variable {env : Env} {n m : ℕ} {X : PairSys n m} {d : Damping} {cut x : ℝ} {k : ℕ}
  {C : Fin n → Fin n → ℝ → ℝ → ℝ} {P : Fin n → Fin m → ℝ → ℝ → ℝ} {C0 : Fin n → Fin n → ℝ}

/-- The system with other positions. -/
def _root_.TadDftd4.PairSys.moved (X : PairSys n m) (P : Fin n → Fin m → ℝ → ℝ → ℝ) (s : ℝ) : PairSys n m :=
  { X with posFn := fun i k => P i k s }

theorem tame2_cdist (i j : Fin n) : Tame2 (cdist env X i j) x (env.ssqrt (sqD X i j x)) := by
  unfold cdist
  refine (Tame2.ssqrt (((Tame2.sum fun k => Tame2.input.mul Tame2.input).add
    (Tame2.sum fun k => Tame2.input.mul Tame2.input)).sub
    (Tame2.const.mul (Tame2.sum fun k => Tame2.input.mul Tame2.input)))).congr ?_
  rw [sqD_eq]

theorem tame2_distance (i j : Fin n) : Tame2 (distance env X i j) x (distV env X i j x) :=
  Tame2.sel (P := fun _ => ok X i j) (tame2_cdist i j) Tame2.const

theorem dead2_distance {i j : Fin n} (h : ¬ ok X i j) : Dead2 (distance env X i j) x :=
  Dead2.masked (P := fun _ => ok X i j) (tame2_cdist i j) Steady2.const h

/-- Conditions for the second backward pass to yield the mixed derivative. -/
structure Ok2 (env : Env) (X : PairSys n m) (P : Fin n → Fin m → ℝ → ℝ → ℝ)
    (C : Fin n → Fin n → ℝ → ℝ → ℝ) (d : Damping) (cut : ℝ) : Prop where
  fl : env.fl = id
  zero : X.moved P 0 = X
  pos : ∀ i k, X.Z i ≠ 0 → Fine2 (pos X i k) (P i k)
  apart : ∀ i j, ok X i j → env.eps < sqD X i j 0
  c6 : ∀ i j, Fine2 (c6 X i j) (C i j)
  par : ∀ m, Steady2 (par X m) 0
  parC : ∀ m y, X.parFn m y = X.parFn m 0
  damp : ∀ i j, ok X i j → ∀ k, k = 6 ∨ k = 8 → zeroed X.isNone k = false →
    DampAt d k (parV X 0) (radius X d i j)
  cut : ∀ i j, ok X i j → distV env X i j 0 ≠ cut
  ten : X.isNone .s10 = false → d = .rational

theorem Ok2.dist (h : Ok2 env X P C d cut) {i j : Fin n} (hij : ok X i j) :
    Fine2 (distance env X i j) (fun s t => distV env (X.moved P s) i j t) := by
  have hI := fun k => h.pos i k hij.1
  have hJ := fun k => h.pos j k hij.2.1
  have hc : Fine2 (cdist env X i j) (fun s t => env.ssqrt (sqD (X.moved P s) i j t)) := by
    unfold cdist
    refine (Fine2.ssqrt (((Fine2.sum fun k => (hI k).mul (hI k)).add
      (Fine2.sum fun k => (hJ k).mul (hJ k))).sub
      (Fine2.const.mul (Fine2.sum fun k => (hI k).mul (hJ k)))) ?_).congr' fun s t => ?_
    · have h1 := h.apart i j hij
      rw [← h.zero] at h1
      rw [← sqD_eq] at h1
      exact h1
    · rw [← sqD_eq]
      rfl
  refine (Fine2.sel_true (P := fun _ => ok X i j) hc (Tame2.const (c := env.eps))
    (.of_forall fun _ => hij)).congr' fun s t => ?_
  rw [distV, if_pos (show ok (X.moved P s) i j from hij)]

theorem Ok2.distV0 (h : Ok2 env X P C d cut) (i j : Fin n) :
    distV env (X.moved P 0) i j 0 = distV env X i j 0 := by rw [h.zero]

theorem fine2_damped (h : Ok2 env X P C d cut) (hk : k = 6 ∨ k = 8 ∨ (k = 10 ∧ X.isNone .s10 = false))
    (i j : Fin n) :
    Fine2 (damped env X d cut k i j) (fun s t => tV env (X.moved P s) d cut k i j t) := by
  have hpar : ∀ (s t : ℝ), parV (X.moved P s) t = parV X 0 := fun s t => funext fun m => h.parC m t
  unfold damped
  by_cases hij : ok X i j
  · have hD := h.dist hij
    have hdamp : Fine2 (Pair.call env X.isNone d k (distance env X i j) (radius X d i j) (Pair.par X))
        (fun s t => callV env X.isNone d k (parV X 0) (distV env (X.moved P s) i j t) (radius X d i j)) := by
      unfold call callV
      by_cases hz : zeroed X.isNone k = true
      · simp only [hz, if_true]
        exact Fine2.const
      · simp only [hz]
        have hz : zeroed X.isNone k = false := by simpa using hz
        refine fine2_damp (v := parV X 0) h.fl ?_ hD h.par (fun m y => ?_) (distV_pos i j 0) ?_
        · rcases hk with rfl | rfl | ⟨rfl, -⟩ <;> decide
        · rw [par_eval, h.parC]
          rfl
        · rcases hk with hk | hk | ⟨-, h10⟩
          · exact h.damp i j hij k (Or.inl hk) hz
          · exact h.damp i j hij k (Or.inr hk) hz
          · rw [h.ten h10]
            trivial
    have hne : distV env (X.moved P 0) i j 0 ≠ cut := by
      rw [h.distV0]
      exact h.cut i j hij
    rcases hD.le_or hne with ⟨h0, h1⟩ | ⟨h0, h1⟩
    · refine (Fine2.sel_true hdamp (Tame2.const (c := 0)) (h0.mono fun t ht => ⟨hij, ht⟩)).congr ?_
      filter_upwards [h1] with t ht
      filter_upwards [ht] with s h3
      rw [tV, if_pos ⟨show ok (X.moved P s) i j from hij, h3⟩, hpar]
      rfl
    · refine (Fine2.sel_false hdamp.tame (Fine2.const (c := 0)) (h0.mono fun t ht h4 => ht h4.2)).congr ?_
      filter_upwards [h1] with t ht
      filter_upwards [ht] with s h3
      rw [tV, if_neg fun h4 => h3 h4.2]
  · refine (Dead2.fine_sel ?_ (Fine2.const (c := 0)) (.of_forall fun y h => hij h.1)).congr' fun s t => ?_
    · unfold call
      split
      · exact Dead2.const
      · exact dead2_damp (dead2_distance hij) h.par
    · rw [tV, if_neg fun h' => hij h'.1]

theorem fine2_energy (h : Ok2 env X P C d cut) (i : Fin n) :
    Fine2 (energy env X d cut i)
      (fun s t => enV env (X.moved P s) (fun i j => C i j s) d cut i t) := by
  have hp : ∀ m, Fine2 (Pair.par X m) fun _ _ => X.parFn m 0 := fun m =>
    (h.par m).fine fun y => by rw [par_eval, h.parC]
  have he := ((hp .s6).mul (Fine2.sum fun j => (h.c6 i j).mul
    (fine2_damped h (Or.inl rfl) i j))).add ((hp .s8).mul (Fine2.sum fun j =>
    ((h.c6 i j).mul (Fine2.const (c := 3 * X.Q i * X.Q j))).mul
      (fine2_damped h (Or.inr (Or.inl rfl)) i j)))
  have hpar : ∀ (s t : ℝ) m, (X.moved P s).parFn m t = X.parFn m 0 := fun s t m => h.parC m t
  unfold energy
  by_cases h10 : X.isNone .s10 = true
  · simp only [h10, if_true]
    refine (Fine2.const.mul he).congr' fun s t => ?_
    unfold enV
    rw [if_pos (show (X.moved P s).isNone .s10 = true from h10), hpar, hpar]
    rfl
  · have hf : X.isNone .s10 = false := by simpa using h10
    simp only [hf, Bool.false_eq_true, if_false]
    refine (Fine2.const.mul (he.add ((hp .s10).mul (Fine2.sum fun j =>
      ((((h.c6 i j).mul (Fine2.const (c := (3 * X.Q i * X.Q j) ^ 2))).mul
        (Fine2.const (c := 49))).div (Fine2.const (c := 40)) (by norm_num)).mul
        (fine2_damped h (Or.inr (Or.inr ⟨rfl, hf⟩)) i j))))).congr' fun s t => ?_
    unfold enV
    rw [if_neg (show ¬ (X.moved P s).isNone .s10 = true from h10), hpar, hpar, hpar]
    rfl

end

end Pair

end Tape

end TadDftd4
