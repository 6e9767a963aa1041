import Verif.Lemmas.Autograd
import Mathlib.Analysis.Calculus.Deriv.Abs

/-!
# Second backward passes

Two parameters: the graph is a function of `t`; `backT` yields the graph of the derivative with respect
to `s`, whose backward pass is the mixed second derivative.
-/

set_option linter.unusedSimpArgs false

open scoped Classical Topology

namespace TadDftd4

/-- At the origin: derivatives with respect to the second and the first argument and mixed second
derivative. -/
def HasJet (F : ℝ → ℝ → ℝ) (u v w : ℝ) : Prop :=
  HasDerivAt (F 0) u 0 ∧ ∃ D : ℝ → ℝ, D 0 = v ∧ HasDerivAt D w 0 ∧
    ∀ᶠ t in 𝓝 0, HasDerivAt (fun s => F s t) (D t) 0

namespace HasJet

variable {F F' : ℝ → ℝ → ℝ} {u v w u' v' w' : ℝ}

theorem continuousAt (h : HasJet F u v w) : ContinuousAt (F 0) 0 := h.1.continuousAt

/-- An open condition holds near the origin. -/
theorem eventually (h : HasJet F u v w) {P : ℝ → Prop} (hP : ∀ᶠ z in 𝓝 (F 0 0), P z) :
    ∀ᶠ t in 𝓝 0, ∀ᶠ s in 𝓝 0, P (F s t) := by
  obtain ⟨h1, D, -, -, h2⟩ := h
  filter_upwards [h1.continuousAt.eventually hP.eventually_nhds, h2] with t ht h3
  exact h3.continuousAt.eventually ht

theorem congr (h : HasJet F u v w) (he : ∀ᶠ t in 𝓝 (0 : ℝ), ∀ᶠ s in 𝓝 (0 : ℝ), F s t = F' s t) :
    HasJet F' u v w := by
  obtain ⟨h1, D, h2, h3, h4⟩ := h
  refine ⟨h1.congr_of_eventuallyEq ?_, D, h2, h3, ?_⟩
  · filter_upwards [he] with t ht
    exact ht.self_of_nhds.symm
  · filter_upwards [he, h4] with t ht h5
    exact h5.congr_of_eventuallyEq (ht.mono fun s hs => hs.symm)

theorem const {c : ℝ} : HasJet (fun _ _ => c) 0 0 0 :=
  ⟨hasDerivAt_const _ _, fun _ => 0, rfl, hasDerivAt_const _ _, .of_forall fun _ => hasDerivAt_const _ _⟩

theorem add (h : HasJet F u v w) (h' : HasJet F' u' v' w') :
    HasJet (fun s t => F s t + F' s t) (u + u') (v + v') (w + w') := by
  obtain ⟨h1, D, h2, h3, h4⟩ := h
  obtain ⟨h1', D', h2', h3', h4'⟩ := h'
  refine ⟨h1.add h1', fun t => D t + D' t, by simp [h2, h2'], h3.add h3', ?_⟩
  filter_upwards [h4, h4'] with t h5 h5'
  exact h5.add h5'

theorem mul (h : HasJet F u v w) (h' : HasJet F' u' v' w') :
    HasJet (fun s t => F s t * F' s t) (u * F' 0 0 + F 0 0 * u') (v * F' 0 0 + F 0 0 * v')
      (w * F' 0 0 + v * u' + (u * v' + F 0 0 * w')) := by
  obtain ⟨h1, D, h2, h3, h4⟩ := h
  obtain ⟨h1', D', h2', h3', h4'⟩ := h'
  refine ⟨h1.mul h1', fun t => D t * F' 0 t + F 0 t * D' t, by simp [h2, h2'], ?_, ?_⟩
  · have := (h3.mul h1').add (h1.mul h3')
    rw [h2, h2'] at this
    exact this
  · filter_upwards [h4, h4'] with t h5 h5'
    exact h5.mul h5'

theorem comp (h : HasJet F u v w) {φ φ' : ℝ → ℝ} {φ'' : ℝ}
    (h1 : ∀ᶠ z in 𝓝 (F 0 0), HasDerivAt φ (φ' z) z) (h2 : HasDerivAt φ' φ'' (F 0 0)) :
    HasJet (fun s t => φ (F s t)) (φ' (F 0 0) * u) (φ' (F 0 0) * v)
      (φ'' * u * v + φ' (F 0 0) * w) := by
  obtain ⟨h3, D, h4, h5, h6⟩ := h
  refine ⟨h1.self_of_nhds.comp 0 h3, fun t => φ' (F 0 t) * D t, by simp [h4], ?_, ?_⟩
  · have := (h2.comp 0 h3).mul h5
    rw [h4] at this
    exact this
  · filter_upwards [h3.continuousAt.eventually h1, h6] with t h7 h8
    exact HasDerivAt.comp (h₂ := φ) (h := fun s => F s t) 0 h7 h8

theorem sum {n : ℕ} {F : Fin n → ℝ → ℝ → ℝ} {u v w : Fin n → ℝ} (h : ∀ i, HasJet (F i) (u i) (v i) (w i)) :
    HasJet (fun s t => ∑ i, F i s t) (∑ i, u i) (∑ i, v i) (∑ i, w i) := by
  choose h1 D h2 h3 h4 using h
  refine ⟨HasDerivAt.fun_sum fun i _ => h1 i, fun t => ∑ i, D i t, by simp [h2],
    HasDerivAt.fun_sum fun i _ => h3 i, ?_⟩
  filter_upwards [Filter.eventually_all.2 h4] with t ht
  exact HasDerivAt.fun_sum fun i _ => ht i

theorem null (h : HasJet (fun _ _ => 0) u v w) : u = 0 ∧ v = 0 ∧ w = 0 := by
  obtain ⟨h1, D, h2, h3, h4⟩ := h
  have hD : ∀ᶠ t in 𝓝 (0 : ℝ), D t = 0 := h4.mono fun t ht => ht.unique (hasDerivAt_const _ _)
  refine ⟨h1.unique (hasDerivAt_const _ _), h2 ▸ hD.self_of_nhds, ?_⟩
  exact (h3.congr_of_eventuallyEq (f₁ := fun _ => 0) (hD.mono fun t ht => ht.symm)).unique
    (hasDerivAt_const _ _)

end HasJet

namespace Tape

/-- At `x` the value is `c` and the backward pass multiplies by `u`. -/
def Lin (e : Tape) (x c u : ℝ) : Prop :=
  e.eval x = .fin c ∧ ∀ γ, e.back x (.fin γ) = .fin (γ * u)

/-- Value and derivatives of the graph at `x`, and of the graph of its backward pass. -/
def Jet (e : Tape) (x c u v w : ℝ) : Prop :=
  Lin e x c u ∧ ∀ g cg ug, Lin g x cg ug → Lin (backT e g) x (cg * v) (ug * v + cg * w)

/-- All passes yield numbers. -/
def Tame2 (e : Tape) (x c : ℝ) : Prop := ∃ u v w, Jet e x c u v w

/-- Near the origin the value is given by `F`, and the passes yield its derivatives. -/
def Fine2 (e : Tape) (F : ℝ → ℝ → ℝ) : Prop :=
  (∀ᶠ t in 𝓝 0, e.eval t = .fin (F 0 t)) ∧ ∃ u v w, Jet e 0 (F 0 0) u v w ∧ HasJet F u v w

variable {e a b g : Tape} {f f' : ℝ → ℝ} {x c c' u u' v v' w w' cg ug : ℝ} {F F' : ℝ → ℝ → ℝ}

namespace Lin

theorem congr (h : Lin e x c u) (hc : c = c') (hu : u = u') : Lin e x c' u' := hc ▸ hu ▸ h

theorem const : Lin (const c) x c 0 := ⟨rfl, fun _ => by simp [Tape.back]⟩

theorem leaf {d d' : ℝ → ℝ} : Lin (leaf f f' d d') x (f x) (f' x) := ⟨rfl, fun _ => rfl⟩

theorem neg (ha : Lin a x c u) : Lin (neg a) x (-c) (-u) :=
  ⟨by simp [Tape.eval, ha.1, FP.neg], fun g => by simp [Tape.back, FP.neg, ha.2]⟩

theorem add (ha : Lin a x c u) (hb : Lin b x c' u') : Lin (add a b) x (c + c') (u + u') := by
  refine ⟨by simp [Tape.eval, ha.1, hb.1, FP.add], fun g => ?_⟩
  simp [Tape.back, FP.add, ha.2, hb.2]
  ring

theorem mul (ha : Lin a x c u) (hb : Lin b x c' u') : Lin (mul a b) x (c * c') (u * c' + c * u') := by
  refine ⟨by simp [Tape.eval, ha.1, hb.1, FP.mul], fun g => ?_⟩
  simp [Tape.back, FP.add, FP.mul, ha.1, hb.1, ha.2, hb.2]
  ring

theorem div (ha : Lin a x c u) (hb : Lin b x c' u') (h0 : c' ≠ 0) :
    Lin (div a b) x (c / c') ((u * c' - c * u') / c' ^ 2) := by
  refine ⟨by simp [Tape.eval, ha.1, hb.1, FP.div, h0], fun g => ?_⟩
  simp only [Tape.back, FP.add, FP.mul, FP.div, FP.neg, ha.1, hb.1, ha.2, hb.2, h0, ne_eq,
    not_false_eq_true, if_true]
  congr 1
  field_simp
  ring

theorem exp {fl : ℝ → ℝ} (ha : Lin a x c u) :
    Lin (exp fl a) x (fl (Real.exp c)) (fl (Real.exp c) * u) := by
  refine ⟨by simp [Tape.eval, ha.1, FP.flexp], fun g => ?_⟩
  simp [Tape.back, FP.flexp, FP.mul, ha.1, ha.2]
  ring

theorem expo {fmax : ℝ} (ha : Lin a x c u) (h : Real.exp c ≤ fmax) :
    Lin (expo fmax a) x (Real.exp c) (Real.exp c * u) := by
  refine ⟨by simp [Tape.eval, ha.1, FP.oexp, h], fun g => ?_⟩
  rw [Tape.back, ha.1]
  simp only [FP.oexp, h, if_true, FP.mul]
  rw [ha.2, mul_assoc]

/-- Powers are numbers. -/
def PowDef (c p : ℝ) : Prop := 0 < c ∨ (0 ≤ c ∧ 0 ≤ p)

theorem PowDef.eval {fl : ℝ → ℝ} {p : ℝ} (h : PowDef c p) : (FP.fin c).pow fl p = .fin (fl (c ^ p)) := by
  rcases h with h | ⟨h, hp⟩
  · simp [FP.pow, h]
  · rcases h.eq_or_lt with h | h
    · simp [FP.pow, ← h, hp]
    · simp [FP.pow, h]

theorem pow {fl : ℝ → ℝ} {p : ℝ} (ha : Lin a x c u) (h : PowDef c p) (h' : p = 0 ∨ PowDef c (p - 1)) :
    Lin (pow fl a p) x (fl (c ^ p)) (p * fl (c ^ (p - 1)) * u) := by
  refine ⟨?_, fun g => ?_⟩
  · simp only [Tape.eval, ha.1]
    exact h.eval
  · simp only [Tape.back, ha.1]
    split_ifs with hp
    · simp [ha.2, hp]
    · rw [(h'.resolve_left hp).eval]
      simp only [FP.mul, ha.2]
      congr 1
      ring

theorem npow {k : ℕ} (ha : Lin a x c u) : Lin (npow a k) x (c ^ k) (k * c ^ (k - 1) * u) := by
  refine ⟨by simp [Tape.eval, ha.1, FP.npow], fun g => ?_⟩
  simp [Tape.back, FP.npow, FP.mul, ha.1, ha.2]
  ring

theorem sqrt (ha : Lin a x c u) (h : 0 < c) : Lin (sqrt a) x (√c) (1 / (2 * √c) * u) := by
  have h2 : √c ≠ 0 := (Real.sqrt_pos.2 h).ne'
  refine ⟨by simp [Tape.eval, ha.1, FP.sqrt, h.le], fun g => ?_⟩
  simp [Tape.back, FP.sqrt, FP.mul, FP.div, ha.1, ha.2, h.le, h2]
  ring

/-- `torch.sgn` -/
noncomputable def sg (c : ℝ) : ℝ := if 0 < c then 1 else if c < 0 then -1 else 0

theorem sgn (ha : Lin a x c u) : Lin (sgn a) x (sg c) 0 :=
  ⟨by simp [Tape.eval, ha.1, FP.sgn, sg], fun g => by simp [Tape.back, ha.2]⟩

theorem abs (ha : Lin a x c u) : Lin (abs a) x |c| (sg c * u) := by
  refine ⟨by simp [Tape.eval, ha.1, FP.abs], fun g => ?_⟩
  simp only [Tape.back, FP.sgn, FP.mul, ha.1, ha.2, sg]
  congr 1
  ring

theorem clampMin {m : ℝ} (ha : Lin a x c u) :
    Lin (clampMin a m) x (max c m) (if m ≤ c then u else 0) := by
  refine ⟨by simp [Tape.eval, ha.1, FP.clampMin], fun g => ?_⟩
  simp only [Tape.back, ha.1, FP.ge]
  split_ifs <;> simp [ha.2]

theorem sel {P : ℝ → Prop} [Decidable (P x)] (ha : Lin a x c u) (hb : Lin b x c' u') :
    Lin (sel P a b) x (if P x then c else c') (if P x then u else u') := by
  by_cases h : P x
  · exact ⟨by simp [Tape.eval, h, ha.1], fun g => by simp [Tape.back, h, ha.2, hb.2, FP.add]⟩
  · exact ⟨by simp [Tape.eval, h, hb.1], fun g => by simp [Tape.back, h, ha.2, hb.2, FP.add]⟩

theorem sum {n : ℕ} {a : Fin n → Tape} {c u : Fin n → ℝ} (h : ∀ i, Lin (a i) x (c i) (u i)) :
    Lin (sum n a) x (∑ i, c i) (∑ i, u i) := by
  refine ⟨?_, fun g => ?_⟩
  · simp only [Tape.eval, (h _).1]
    exact FP.sum_fin _
  · simp only [Tape.back, (h _).2]
    rw [FP.sum_fin, Finset.mul_sum]

end Lin

namespace Jet

theorem congr (h : Jet e x c u v w) (hc : c = c') (hu : u = u') (hv : v = v') (hw : w = w') :
    Jet e x c' u' v' w' := hc ▸ hu ▸ hv ▸ hw ▸ h

theorem const : Jet (const c) x c 0 0 0 :=
  ⟨Lin.const, fun g cg ug _ => Lin.const.congr (by simp) (by simp)⟩

theorem frozen : Jet (frozen f) x (f x) 0 0 0 :=
  ⟨⟨rfl, fun _ => by simp [Tape.back]⟩, fun g cg ug _ => Lin.const.congr (by simp) (by simp)⟩

theorem leaf {d d' : ℝ → ℝ} : Jet (leaf f f' d d') x (f x) (f' x) (d x) (d' x) :=
  ⟨Lin.leaf, fun _ _ _ h => h.mul Lin.leaf⟩

/-- A node with one argument, whose backward pass multiplies by a graph with value `φ'` and derivative
`φ''`. -/
theorem unary (ha : Jet a x c u v w) {φ φ' φ'' : ℝ} (h1 : Lin e x φ (φ' * u))
    (h2 : ∀ g cg ug, Lin g x cg ug → ∃ g', backT e g = backT a g' ∧
      Lin g' x (cg * φ') (ug * φ' + cg * (φ'' * u))) :
    Jet e x φ (φ' * u) (φ' * v) (φ'' * u * v + φ' * w) := by
  refine ⟨h1, fun g cg ug hg => ?_⟩
  obtain ⟨g', h3, h4⟩ := h2 g cg ug hg
  rw [h3]
  exact (ha.2 _ _ _ h4).congr (by ring) (by ring)

theorem neg (ha : Jet a x c u v w) : Jet (neg a) x (-c) (-u) (-v) (-w) :=
  ⟨ha.1.neg, fun g cg ug hg => (ha.2 _ _ _ hg.neg).congr (by ring) (by ring)⟩

theorem add (ha : Jet a x c u v w) (hb : Jet b x c' u' v' w') :
    Jet (add a b) x (c + c') (u + u') (v + v') (w + w') :=
  ⟨ha.1.add hb.1, fun g cg ug hg =>
    ((ha.2 _ _ _ hg).add (hb.2 _ _ _ hg)).congr (by ring) (by ring)⟩

theorem sub (ha : Jet a x c u v w) (hb : Jet b x c' u' v' w') :
    Jet (sub a b) x (c - c') (u - u') (v - v') (w - w') := by
  refine ⟨⟨?_, fun g => ?_⟩, fun g cg ug hg =>
    ((ha.2 _ _ _ hg).add (hb.2 _ _ _ hg.neg)).congr (by ring) (by ring)⟩
  · simp [Tape.eval, ha.1.1, hb.1.1, FP.add, FP.sub, FP.neg, sub_eq_add_neg]
  · simp [Tape.back, FP.add, FP.neg, ha.1.2, hb.1.2]
    ring

theorem mul (ha : Jet a x c u v w) (hb : Jet b x c' u' v' w') :
    Jet (mul a b) x (c * c') (u * c' + c * u') (v * c' + c * v')
      (w * c' + v * u' + (u * v' + c * w')) :=
  ⟨ha.1.mul hb.1, fun g cg ug hg =>
    ((ha.2 _ _ _ (hg.mul hb.1)).add (hb.2 _ _ _ (hg.mul ha.1))).congr (by ring) (by ring)⟩

/-- Derivatives of a quotient: product with the inverse. -/
theorem div (ha : Jet a x c u v w) (hb : Jet b x c' u' v' w') (h0 : c' ≠ 0) :
    Jet (div a b) x (c * c'⁻¹) (u * c'⁻¹ + c * (-(c' ^ 2)⁻¹ * u')) (v * c'⁻¹ + c * (-(c' ^ 2)⁻¹ * v'))
      (w * c'⁻¹ + v * (-(c' ^ 2)⁻¹ * u') + (u * (-(c' ^ 2)⁻¹ * v') +
        c * (2 * (c' ^ 3)⁻¹ * u' * v' + -(c' ^ 2)⁻¹ * w'))) := by
  refine ⟨(ha.1.div hb.1 h0).congr (div_eq_mul_inv _ _) (by field_simp; ring), fun g cg ug hg => ?_⟩
  refine ((ha.2 _ _ _ (hg.div hb.1 h0)).add (hb.2 _ _ _
    (hg.neg.mul ((ha.1.div hb.1 h0).div hb.1 h0)))).congr ?_ ?_
  · field_simp
  · field_simp
    ring

theorem exp {fl : ℝ → ℝ} (ha : Jet a x c u v w) :
    Jet (exp fl a) x (fl (Real.exp c)) (fl (Real.exp c) * u) (fl (Real.exp c) * v)
      (fl (Real.exp c) * u * v + fl (Real.exp c) * w) :=
  ha.unary ha.1.exp fun g _ _ hg => ⟨Tape.mul g (Tape.exp fl a), rfl, hg.mul ha.1.exp⟩

theorem expo {fmax : ℝ} (ha : Jet a x c u v w) (h : Real.exp c ≤ fmax) :
    Jet (expo fmax a) x (Real.exp c) (Real.exp c * u) (Real.exp c * v)
      (Real.exp c * u * v + Real.exp c * w) :=
  ha.unary (ha.1.expo h) fun g _ _ hg => ⟨Tape.mul g (Tape.expo fmax a), rfl, hg.mul (ha.1.expo h)⟩

theorem pow {fl : ℝ → ℝ} {p : ℝ} (ha : Jet a x c u v w)
    (h : 0 < c ∨ (0 ≤ c ∧ (p = 0 ∨ p = 1 ∨ 2 ≤ p))) :
    Jet (pow fl a p) x (fl (c ^ p)) (p * fl (c ^ (p - 1)) * u) (p * fl (c ^ (p - 1)) * v)
      (p * ((p - 1) * fl (c ^ (p - 1 - 1))) * u * v + p * fl (c ^ (p - 1)) * w) := by
  have h0 : Lin.PowDef c p := h.imp id fun h => ⟨h.1, by rcases h.2 with h | h | h <;> linarith⟩
  have h1 : p = 0 ∨ Lin.PowDef c (p - 1) := by
    rcases h with h | ⟨h, hp | hp | hp⟩
    · exact Or.inr (Or.inl h)
    · exact Or.inl hp
    · exact Or.inr (Or.inr ⟨h, by linarith⟩)
    · exact Or.inr (Or.inr ⟨h, by linarith⟩)
  have h2 : p = 0 ∨ p - 1 = 0 ∨ Lin.PowDef c (p - 1 - 1) := by
    rcases h with h | ⟨h, hp | hp | hp⟩
    · exact Or.inr (Or.inr (Or.inl h))
    · exact Or.inl hp
    · exact Or.inr (Or.inl (by linarith))
    · exact Or.inr (Or.inr (Or.inr ⟨h, by linarith⟩))
  refine ha.unary (ha.1.pow h0 h1) fun g cg ug hg => ⟨_, rfl, ?_⟩
  by_cases hp : p = 0
  · rw [if_pos hp]
    exact Lin.const.congr (by simp [hp]) (by simp [hp])
  · rw [if_neg hp]
    exact (hg.mul (Lin.const.mul (ha.1.pow (h1.resolve_left hp) (h2.resolve_left hp)))).congr
      (by ring) (by ring)

theorem npow {k : ℕ} (ha : Jet a x c u v w) :
    Jet (npow a k) x (c ^ k) (k * c ^ (k - 1) * u) (k * c ^ (k - 1) * v)
      (k * (((k - 1 : ℕ) : ℝ) * c ^ (k - 1 - 1)) * u * v + k * c ^ (k - 1) * w) :=
  ha.unary ha.1.npow fun g cg ug hg => ⟨_, rfl,
    (hg.mul (Lin.const.mul ha.1.npow)).congr (by ring) (by ring)⟩

theorem sqrt (ha : Jet a x c u v w) (h : 0 < c) :
    Jet (sqrt a) x (√c) (1 / (2 * √c) * u) (1 / (2 * √c) * v)
      (-(1 / (4 * √c ^ 3)) * u * v + 1 / (2 * √c) * w) := by
  have h2 : √c ≠ 0 := (Real.sqrt_pos.2 h).ne'
  refine ha.unary (ha.1.sqrt h) fun g cg ug hg => ⟨_, rfl,
    (hg.div (Lin.const.mul (ha.1.sqrt h)) (mul_ne_zero two_ne_zero h2)).congr ?_ ?_⟩
  · ring
  · field_simp
    ring

theorem abs (ha : Jet a x c u v w) :
    Jet (abs a) x |c| (Lin.sg c * u) (Lin.sg c * v) (0 * u * v + Lin.sg c * w) :=
  ha.unary ha.1.abs fun g cg ug hg => ⟨_, rfl, (hg.mul ha.1.sgn).congr (by ring) (by ring)⟩

theorem clampMin {m : ℝ} (ha : Jet a x c u v w) :
    Jet (clampMin a m) x (max c m) (if m ≤ c then u else 0) (if m ≤ c then v else 0)
      (if m ≤ c then w else 0) := by
  refine ⟨ha.1.clampMin, fun g cg ug hg => ?_⟩
  have h := ha.2 _ _ _ (Lin.sel (P := fun y => (a.eval y).ge m) hg (Lin.const (c := 0)))
  by_cases hm : m ≤ c
  · have hP : (a.eval x).ge m := by rw [ha.1.1]; exact hm
    simp only [hP, if_true] at h
    simp only [hm, if_true]
    exact h
  · have hP : ¬ (a.eval x).ge m := by rw [ha.1.1]; exact hm
    simp only [hP, if_false] at h
    simp only [hm, if_false]
    exact h.congr (by ring) (by ring)

theorem sel {P : ℝ → Prop} [Decidable (P x)] (ha : Jet a x c u v w) (hb : Jet b x c' u' v' w') :
    Jet (sel P a b) x (if P x then c else c') (if P x then u else u') (if P x then v else v')
      (if P x then w else w') := by
  refine ⟨ha.1.sel hb.1, fun g cg ug hg => ?_⟩
  refine ((ha.2 _ _ _ (Lin.sel (P := P) hg (Lin.const (c := 0)))).add
    (hb.2 _ _ _ (Lin.sel (P := P) (Lin.const (c := 0)) hg))).congr ?_ ?_ <;> split_ifs <;> ring

theorem sum {n : ℕ} {a : Fin n → Tape} {c u v w : Fin n → ℝ}
    (h : ∀ i, Jet (a i) x (c i) (u i) (v i) (w i)) :
    Jet (sum n a) x (∑ i, c i) (∑ i, u i) (∑ i, v i) (∑ i, w i) := by
  refine ⟨Lin.sum fun i => (h i).1, fun g cg ug hg => ?_⟩
  refine (Lin.sum fun i => (h i).2 _ _ _ hg).congr ?_ ?_
  · rw [Finset.mul_sum]
  · rw [Finset.sum_add_distrib, Finset.mul_sum, Finset.mul_sum]

end Jet

/-! ## Numbers -/

namespace Tame2

theorem congr (h : Tame2 e x c) (hc : c = c') : Tame2 e x c' := hc ▸ h

theorem eval (h : Tame2 e x c) : e.eval x = .fin c := by
  obtain ⟨u, v, w, h⟩ := h
  exact h.1.1

theorem const : Tame2 (const c) x c := ⟨_, _, _, Jet.const⟩

theorem input {g : Bool} {d : ℝ → ℝ} : Tame2 (input g f d) x (f x) := by
  cases g
  · exact ⟨_, _, _, Jet.frozen⟩
  · exact ⟨_, _, _, Jet.leaf⟩

theorem neg (ha : Tame2 a x c) : Tame2 (neg a) x (-c) := by
  obtain ⟨u, v, w, h⟩ := ha
  exact ⟨_, _, _, h.neg⟩

theorem add (ha : Tame2 a x c) (hb : Tame2 b x c') : Tame2 (add a b) x (c + c') := by
  obtain ⟨u, v, w, h⟩ := ha
  obtain ⟨u', v', w', h'⟩ := hb
  exact ⟨_, _, _, h.add h'⟩

theorem sub (ha : Tame2 a x c) (hb : Tame2 b x c') : Tame2 (sub a b) x (c - c') := by
  obtain ⟨u, v, w, h⟩ := ha
  obtain ⟨u', v', w', h'⟩ := hb
  exact ⟨_, _, _, h.sub h'⟩

theorem mul (ha : Tame2 a x c) (hb : Tame2 b x c') : Tame2 (mul a b) x (c * c') := by
  obtain ⟨u, v, w, h⟩ := ha
  obtain ⟨u', v', w', h'⟩ := hb
  exact ⟨_, _, _, h.mul h'⟩

theorem div (ha : Tame2 a x c) (hb : Tame2 b x c') (h0 : c' ≠ 0) : Tame2 (div a b) x (c / c') := by
  obtain ⟨u, v, w, h⟩ := ha
  obtain ⟨u', v', w', h'⟩ := hb
  exact ⟨_, _, _, (h.div h' h0).congr (div_eq_mul_inv _ _).symm rfl rfl rfl⟩

theorem exp {fl : ℝ → ℝ} (ha : Tame2 a x c) : Tame2 (exp fl a) x (fl (Real.exp c)) := by
  obtain ⟨u, v, w, h⟩ := ha
  exact ⟨_, _, _, h.exp⟩

theorem expo {fmax : ℝ} (ha : Tame2 a x c) (h : Real.exp c ≤ fmax) :
    Tame2 (expo fmax a) x (Real.exp c) := by
  obtain ⟨u, v, w, h'⟩ := ha
  exact ⟨_, _, _, h'.expo h⟩

theorem pow {fl : ℝ → ℝ} {p : ℝ} (ha : Tame2 a x c)
    (h : 0 < c ∨ (0 ≤ c ∧ (p = 0 ∨ p = 1 ∨ 2 ≤ p))) : Tame2 (pow fl a p) x (fl (c ^ p)) := by
  obtain ⟨u, v, w, h'⟩ := ha
  exact ⟨_, _, _, h'.pow h⟩

theorem npow {k : ℕ} (ha : Tame2 a x c) : Tame2 (npow a k) x (c ^ k) := by
  obtain ⟨u, v, w, h'⟩ := ha
  exact ⟨_, _, _, h'.npow⟩

theorem sqrt (ha : Tame2 a x c) (h : 0 < c) : Tame2 (sqrt a) x (√c) := by
  obtain ⟨u, v, w, h'⟩ := ha
  exact ⟨_, _, _, h'.sqrt h⟩

theorem abs (ha : Tame2 a x c) : Tame2 (abs a) x |c| := by
  obtain ⟨u, v, w, h'⟩ := ha
  exact ⟨_, _, _, h'.abs⟩

theorem clampMin {m : ℝ} (ha : Tame2 a x c) : Tame2 (clampMin a m) x (max c m) := by
  obtain ⟨u, v, w, h'⟩ := ha
  exact ⟨_, _, _, h'.clampMin⟩

theorem sel {P : ℝ → Prop} [Decidable (P x)] (ha : Tame2 a x c) (hb : Tame2 b x c') :
    Tame2 (sel P a b) x (if P x then c else c') := by
  obtain ⟨u, v, w, h⟩ := ha
  obtain ⟨u', v', w', h'⟩ := hb
  exact ⟨_, _, _, h.sel h'⟩

theorem sum {n : ℕ} {a : Fin n → Tape} {c : Fin n → ℝ} (h : ∀ i, Tame2 (a i) x (c i)) :
    Tame2 (sum n a) x (∑ i, c i) := by
  choose u v w h using h
  exact ⟨_, _, _, Jet.sum h⟩

theorem ssqrt {env : Env} (ha : Tame2 a x c) : Tame2 (ssqrt env a) x (env.ssqrt c) :=
  sqrt ha.clampMin (lt_max_of_lt_right env.eps_pos)

theorem sdiv {env : Env} (ha : Tame2 a x c) (hb : Tame2 b x c') (h : c' ≠ 0) :
    Tame2 (sdiv env a b) x (c / c') := by
  have hs : Tame2 (Tape.sel (fun y => (b.eval y).ne0) b (Tape.const env.eps)) x c' := by
    refine (Tame2.sel (P := fun y => (b.eval y).ne0) hb (Tame2.const (c := env.eps))).congr ?_
    rw [if_pos]
    simp [hb.eval, FP.ne0, h]
  exact ha.div hs h

end Tame2

/-! ## Derivatives -/

namespace Fine2

theorem tame (h : Fine2 e F) : Tame2 e 0 (F 0 0) := by
  obtain ⟨-, u, v, w, h, -⟩ := h
  exact ⟨u, v, w, h⟩

theorem eval (h : Fine2 e F) : e.eval 0 = .fin (F 0 0) := h.1.self_of_nhds

theorem continuousAt (h : Fine2 e F) : ContinuousAt (F 0) 0 := by
  obtain ⟨-, u, v, w, -, h⟩ := h
  exact h.continuousAt

/-- An open condition on the value holds near the origin. -/
theorem eventually (h : Fine2 e F) {P : ℝ → Prop} (hP : ∀ᶠ z in 𝓝 (F 0 0), P z) :
    ∀ᶠ t in 𝓝 0, ∀ᶠ s in 𝓝 0, P (F s t) := by
  obtain ⟨-, u, v, w, -, h⟩ := h
  exact h.eventually hP

theorem congr (h : Fine2 e F) (he : ∀ᶠ t in 𝓝 (0 : ℝ), ∀ᶠ s in 𝓝 (0 : ℝ), F s t = F' s t) :
    Fine2 e F' := by
  obtain ⟨h1, u, v, w, h2, h3⟩ := h
  refine ⟨?_, u, v, w, ?_, h3.congr he⟩
  · filter_upwards [h1, he] with t h4 h5
    rw [h4, h5.self_of_nhds]
  · rw [← he.self_of_nhds.self_of_nhds]
    exact h2

theorem congr' (h : Fine2 e F) (he : ∀ s t, F s t = F' s t) : Fine2 e F' :=
  h.congr (.of_forall fun t => .of_forall fun s => he s t)

/-- The second backward pass yields the mixed derivative. -/
theorem back (h : Fine2 e F) {D : ℝ → ℝ} (hD : ∀ᶠ t in 𝓝 0, HasDerivAt (fun s => F s t) (D t) 0)
    (hg : Lin g 0 cg 0) : (backT e g).back 0 (.fin 1) = .fin (cg * deriv D 0) := by
  obtain ⟨-, u, v, w, h2, -, D', h4, h5, h6⟩ := h
  have he : ∀ᶠ t in 𝓝 (0 : ℝ), D t = D' t := by
    filter_upwards [hD, h6] with t h7 h8
    exact h7.unique h8
  rw [(h5.congr_of_eventuallyEq he).deriv, (h2.2 _ _ _ hg).2]
  congr 1
  ring

theorem const : Fine2 (const c) (fun _ _ => c) :=
  ⟨.of_forall fun _ => rfl, 0, 0, 0, Jet.const, HasJet.const⟩

/-- Inputs. -/
theorem input {gr : Bool} (h : gr = true → DifferentiableAt ℝ (F 0) 0 ∧
      (∀ᶠ t in 𝓝 0, DifferentiableAt ℝ (fun s => F s t) 0) ∧
      DifferentiableAt ℝ (fun t => deriv (fun s => F s t) 0) 0)
    (hc : gr = false → ∃ c, F = fun _ _ => c) :
    Fine2 (input gr (F 0) fun t => deriv (fun s => F s t) 0) F := by
  cases gr
  · obtain ⟨c, rfl⟩ := hc rfl
    exact ⟨.of_forall fun _ => rfl, 0, 0, 0, Jet.frozen, HasJet.const⟩
  · obtain ⟨h1, h2, h3⟩ := h rfl
    exact ⟨.of_forall fun _ => rfl, _, _, _, Jet.leaf, h1.hasDerivAt,
      fun t => deriv (fun s => F s t) 0, rfl, h3.hasDerivAt, h2.mono fun t ht => ht.hasDerivAt⟩

theorem add (ha : Fine2 a F) (hb : Fine2 b F') : Fine2 (Tape.add a b) (fun s t => F s t + F' s t) := by
  obtain ⟨h1, u, v, w, h2, h3⟩ := ha
  obtain ⟨h1', u', v', w', h2', h3'⟩ := hb
  refine ⟨?_, _, _, _, h2.add h2', h3.add h3'⟩
  filter_upwards [h1, h1'] with y ha hb
  simp [Tape.eval, ha, hb, FP.add]

theorem mul (ha : Fine2 a F) (hb : Fine2 b F') : Fine2 (Tape.mul a b) (fun s t => F s t * F' s t) := by
  obtain ⟨h1, u, v, w, h2, h3⟩ := ha
  obtain ⟨h1', u', v', w', h2', h3'⟩ := hb
  refine ⟨?_, _, _, _, h2.mul h2', h3.mul h3'⟩
  filter_upwards [h1, h1'] with y ha hb
  simp [Tape.eval, ha, hb, FP.mul]

theorem neg (ha : Fine2 a F) : Fine2 (Tape.neg a) (fun s t => -F s t) := by
  obtain ⟨h1, u, v, w, h2, h3⟩ := ha
  refine ⟨h1.mono fun y h => by simp [Tape.eval, h, FP.neg], -u, -v, -w, h2.neg, ?_⟩
  have := h3.comp (φ := fun z => -z) (φ' := fun _ => -1) (φ'' := 0)
    (.of_forall fun z => hasDerivAt_neg z) (hasDerivAt_const _ _)
  simpa using this

theorem sub (ha : Fine2 a F) (hb : Fine2 b F') : Fine2 (Tape.sub a b) (fun s t => F s t - F' s t) := by
  have hn := hb.neg
  obtain ⟨h1, u, v, w, h2, h3⟩ := ha
  obtain ⟨h1', u', v', w', h2', h3'⟩ := hb
  refine ⟨?_, _, _, _, h2.sub h2', ?_⟩
  · filter_upwards [h1, h1'] with y ha hb
    simp [Tape.eval, ha, hb, FP.add, FP.sub, FP.neg, sub_eq_add_neg]
  · have := h3'.comp (φ := fun z => -z) (φ' := fun _ => -1) (φ'' := 0)
      (.of_forall fun z => hasDerivAt_neg z) (hasDerivAt_const _ _)
    simpa [sub_eq_add_neg] using h3.add this

theorem div (ha : Fine2 a F) (hb : Fine2 b F') (h0 : F' 0 0 ≠ 0) :
    Fine2 (Tape.div a b) (fun s t => F s t / F' s t) := by
  have hc := hb.continuousAt.eventually_ne h0
  obtain ⟨h1, u, v, w, h2, h3⟩ := ha
  obtain ⟨h1', u', v', w', h2', h3'⟩ := hb
  have hinv := h3'.comp (φ := fun z => z⁻¹) (φ' := fun z => -(z ^ 2)⁻¹) (φ'' := 2 * (F' 0 0 ^ 3)⁻¹)
    ((eventually_ne_nhds h0).mono fun z hz => hasDerivAt_inv hz) (by
      have := ((hasDerivAt_pow 2 (F' 0 0)).inv (pow_ne_zero 2 h0)).neg
      refine this.congr_deriv ?_
      simp only [Nat.cast_ofNat, Nat.add_one_sub_one, pow_one]
      field_simp)
  refine ⟨?_, _, _, _, (h2.div h2' h0).congr (div_eq_mul_inv _ _).symm rfl rfl rfl,
    (h3.mul hinv).congr (.of_forall fun t => .of_forall fun s => (div_eq_mul_inv _ _).symm)⟩
  filter_upwards [h1, h1', hc] with y ha hb hc
  simp [Tape.eval, ha, hb, FP.div, hc]

theorem exp (ha : Fine2 a F) : Fine2 (Tape.exp id a) (fun s t => Real.exp (F s t)) := by
  obtain ⟨h1, u, v, w, h2, h3⟩ := ha
  exact ⟨h1.mono fun y h => by simp [Tape.eval, h, FP.flexp], _, _, _, h2.exp,
    h3.comp (φ := Real.exp) (φ' := Real.exp) (.of_forall fun z => Real.hasDerivAt_exp z)
      (Real.hasDerivAt_exp _)⟩

theorem expo {fmax : ℝ} (ha : Fine2 a F) (h : Real.exp (F 0 0) ≤ fmax)
    (he : ∀ᶠ t in 𝓝 0, Real.exp (F 0 t) ≤ fmax) :
    Fine2 (Tape.expo fmax a) (fun s t => Real.exp (F s t)) := by
  obtain ⟨h1, u, v, w, h2, h3⟩ := ha
  refine ⟨?_, _, _, _, h2.expo h, h3.comp (φ := Real.exp) (φ' := Real.exp)
    (.of_forall fun z => Real.hasDerivAt_exp z) (Real.hasDerivAt_exp _)⟩
  filter_upwards [h1, he] with y h2 h3
  simp [Tape.eval, h2, FP.oexp, h3]

theorem pow {p : ℝ} (ha : Fine2 a F) (h : 0 < F 0 0) :
    Fine2 (Tape.pow id a p) (fun s t => F s t ^ p) := by
  have hc := continuousAt_const.eventually_lt ha.continuousAt h
  obtain ⟨h1, u, v, w, h2, h3⟩ := ha
  refine ⟨?_, _, _, _, h2.pow (Or.inl h), h3.comp (φ := fun z => z ^ p)
    (φ' := fun z => p * z ^ (p - 1)) ?_ ?_⟩
  · filter_upwards [h1, hc] with y ha hc
    simp [Tape.eval, ha, FP.pow, hc]
  · filter_upwards [eventually_gt_nhds h] with z hz
    exact Real.hasDerivAt_rpow_const (Or.inl hz.ne')
  · exact (Real.hasDerivAt_rpow_const (p := p - 1) (Or.inl h.ne')).const_mul p

theorem npow {k : ℕ} (ha : Fine2 a F) : Fine2 (Tape.npow a k) (fun s t => F s t ^ k) := by
  obtain ⟨h1, u, v, w, h2, h3⟩ := ha
  exact ⟨h1.mono fun y h => by simp [Tape.eval, h, FP.npow], _, _, _, h2.npow,
    h3.comp (φ := fun z => z ^ k) (φ' := fun z => k * z ^ (k - 1))
      (.of_forall fun z => hasDerivAt_pow k z) ((hasDerivAt_pow (k - 1) _).const_mul (k : ℝ))⟩

theorem sqrt (ha : Fine2 a F) (h : 0 < F 0 0) : Fine2 (Tape.sqrt a) (fun s t => √(F s t)) := by
  have hc := continuousAt_const.eventually_lt ha.continuousAt h
  obtain ⟨h1, u, v, w, h2, h3⟩ := ha
  refine ⟨?_, _, _, _, h2.sqrt h, h3.comp (φ := fun z => √z) (φ' := fun z => 1 / (2 * √z)) ?_ ?_⟩
  · filter_upwards [h1, hc] with y ha hc
    simp [Tape.eval, ha, FP.sqrt, hc.le]
  · filter_upwards [eventually_gt_nhds h] with z hz
    exact Real.hasDerivAt_sqrt hz.ne'
  · have h4 : √(F 0 0) ≠ 0 := (Real.sqrt_pos.2 h).ne'
    have := (((Real.hasDerivAt_sqrt h.ne').const_mul 2).inv (mul_ne_zero two_ne_zero h4))
    simp only [one_div]
    refine this.congr_deriv ?_
    field_simp
    ring

theorem abs (ha : Fine2 a F) (h : F 0 0 ≠ 0) : Fine2 (Tape.abs a) (fun s t => |F s t|) := by
  obtain ⟨h1, u, v, w, h2, h3⟩ := ha
  refine ⟨h1.mono fun y h => by simp [Tape.eval, h, FP.abs], _, _, _, h2.abs,
    h3.comp (φ := fun z => |z|) (φ' := Lin.sg) ?_ ?_⟩
  · rcases lt_or_gt_of_ne h with hl | hl
    · filter_upwards [eventually_lt_nhds hl] with z hz
      simp only [Lin.sg, not_lt.2 hz.le, hz, if_true, if_false]
      exact hasDerivAt_abs_neg hz
    · filter_upwards [eventually_gt_nhds hl] with z hz
      simp only [Lin.sg, hz, if_true]
      exact hasDerivAt_abs_pos hz
  · rcases lt_or_gt_of_ne h with hl | hl
    · refine (hasDerivAt_const _ (-1 : ℝ)).congr_of_eventuallyEq ?_
      filter_upwards [eventually_lt_nhds hl] with z hz
      simp only [Lin.sg, not_lt.2 hz.le, hz, if_true, if_false]
    · refine (hasDerivAt_const _ (1 : ℝ)).congr_of_eventuallyEq ?_
      filter_upwards [eventually_gt_nhds hl] with z hz
      simp only [Lin.sg, hz, if_true]

theorem clampMin_gt {m : ℝ} (ha : Fine2 a F) (h : m < F 0 0) :
    Fine2 (Tape.clampMin a m) (fun s t => max (F s t) m) := by
  have hev := ha.eventually (eventually_gt_nhds h)
  obtain ⟨h1, u, v, w, h2, h3⟩ := ha
  refine ⟨h1.mono fun y h => by simp [Tape.eval, h, FP.clampMin], _, _, _, h2.clampMin, ?_⟩
  simp only [h.le, if_true]
  refine h3.congr (hev.mono fun t ht => ht.mono fun s hs => (max_eq_left (le_of_lt hs)).symm)

/-- Below the threshold only the value of the argument matters. -/
theorem clampMin_lt {m : ℝ} (ha : Tame2 a 0 (F 0 0)) (hev : ∀ᶠ t in 𝓝 0, a.eval t = .fin (F 0 t))
    (hc : ∀ᶠ t in 𝓝 0, ∀ᶠ s in 𝓝 0, F s t < m) :
    Fine2 (Tape.clampMin a m) (fun s t => max (F s t) m) := by
  have h : F 0 0 < m := hc.self_of_nhds.self_of_nhds
  obtain ⟨u, v, w, h2⟩ := ha
  refine ⟨hev.mono fun y h => by simp [Tape.eval, h, FP.clampMin], _, _, _, h2.clampMin, ?_⟩
  simp only [not_le.2 h, if_false]
  exact (HasJet.const (c := m)).congr
    (hc.mono fun t ht => ht.mono fun s hs => (max_eq_right (le_of_lt hs)).symm)

theorem sel_true {P : ℝ → Prop} (ha : Fine2 a F) (hb : Tame2 b 0 c) (hP : ∀ᶠ t in 𝓝 0, P t) :
    Fine2 (Tape.sel P a b) F := by
  obtain ⟨h1, u, v, w, h2, h3⟩ := ha
  obtain ⟨u', v', w', h2'⟩ := hb
  have h := h2.sel (P := P) h2'
  simp only [hP.self_of_nhds, if_true] at h
  refine ⟨?_, _, _, _, h, h3⟩
  filter_upwards [h1, hP] with y ha hP
  simp [Tape.eval, hP, ha]

theorem sel_false {P : ℝ → Prop} (ha : Tame2 a 0 c) (hb : Fine2 b F) (hP : ∀ᶠ t in 𝓝 0, ¬ P t) :
    Fine2 (Tape.sel P a b) F := by
  obtain ⟨h1, u, v, w, h2, h3⟩ := hb
  obtain ⟨u', v', w', h2'⟩ := ha
  have h := h2'.sel (P := P) h2
  simp only [hP.self_of_nhds, if_false] at h
  refine ⟨?_, _, _, _, h, h3⟩
  filter_upwards [h1, hP] with y ha hP
  simp [Tape.eval, hP, ha]

/-- Condition independent of the parameters. -/
theorem sel_const {P : Prop} [Decidable P] (ha : Fine2 a F) (hb : Fine2 b F') :
    Fine2 (Tape.sel (fun _ => P) a b) (fun s t => if P then F s t else F' s t) := by
  by_cases h : P
  · simpa [h] using Fine2.sel_true (P := fun _ => P) ha hb.tame (.of_forall fun _ => h)
  · simpa [h] using Fine2.sel_false (P := fun _ => P) ha.tame hb (.of_forall fun _ => h)

theorem sum {n : ℕ} {a : Fin n → Tape} {F : Fin n → ℝ → ℝ → ℝ} (h : ∀ i, Fine2 (a i) (F i)) :
    Fine2 (Tape.sum n a) (fun s t => ∑ i, F i s t) := by
  choose h1 u v w h2 h3 using h
  refine ⟨?_, _, _, _, Jet.sum h2, HasJet.sum h3⟩
  filter_upwards [Filter.eventually_all.2 h1] with y hy
  simp only [Tape.eval, hy]
  exact FP.sum_fin _

theorem ssqrt {env : Env} (ha : Fine2 a F) (h : env.eps < F 0 0) :
    Fine2 (Tape.ssqrt env a) (fun s t => env.ssqrt (F s t)) :=
  sqrt (ha.clampMin_gt h) (lt_max_of_lt_right env.eps_pos)

theorem ssqrt_lt {env : Env} (ha : Tame2 a 0 (F 0 0)) (hev : ∀ᶠ t in 𝓝 0, a.eval t = .fin (F 0 t))
    (hc : ∀ᶠ t in 𝓝 0, ∀ᶠ s in 𝓝 0, F s t < env.eps) :
    Fine2 (Tape.ssqrt env a) (fun s t => env.ssqrt (F s t)) :=
  sqrt (clampMin_lt ha hev hc) (lt_max_of_lt_right env.eps_pos)

theorem sdiv {env : Env} (ha : Fine2 a F) (hb : Fine2 b F') (h : F' 0 0 ≠ 0) :
    Fine2 (Tape.sdiv env a b) (fun s t => F s t / F' s t) := by
  have hs : Fine2 (Tape.sel (fun y => (b.eval y).ne0) b (Tape.const env.eps)) F' := by
    refine Fine2.sel_true hb (Tame2.const (c := env.eps)) ?_
    filter_upwards [hb.1, hb.continuousAt.eventually_ne h] with y h1 h2
    simp [h1, FP.ne0, h2]
  exact ha.div hs h

/-- A factor that vanishes near the origin. -/
theorem mul_null (ha : Fine2 a fun _ _ => 0) (hb : Tame2 b 0 c)
    (hev : ∀ᶠ t in 𝓝 0, ∃ d, b.eval t = .fin d) : Fine2 (Tape.mul a b) (fun _ _ => 0) := by
  obtain ⟨h1, u, v, w, h2, h3⟩ := ha
  obtain ⟨u', v', w', h2'⟩ := hb
  obtain ⟨rfl, rfl, rfl⟩ := h3.null
  refine ⟨?_, 0, 0, 0, (h2.mul h2').congr (by ring) (by ring) (by ring) (by ring), HasJet.const⟩
  filter_upwards [h1, hev] with t h1 ⟨d, h2⟩
  simp [Tape.eval, h1, h2, FP.mul]

end Fine2

end Tape

end TadDftd4
