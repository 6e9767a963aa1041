import Verif.Model.AutogradDamping
import Verif.Lemmas.AutogradParam
import Verif.Lemmas.AutogradNaN

/-!
# Backward pass through `dispersion2` with any damping function
-/

set_option linter.unusedSimpArgs false

open scoped Classical Topology

namespace TadDftd4

open Tensor

namespace FP
@[simp] theorem fin0_add_fin0 : (fin 0).add (fin 0) = fin 0 := by simp [FP.add]
end FP

namespace Tape

section
variable {a b : Tape} {x c c' : ℝ} {f h : ℝ → ℝ}

/-- Nothing is passed on, whatever arrives. -/
def Dead (e : Tape) (x : ℝ) : Prop := ∀ g, e.back x g = .fin 0

theorem Dead.const : Dead (const c) x := fun _ => rfl
theorem Dead.frozen : Dead (frozen f) x := fun _ => rfl
theorem Dead.neg (ha : Dead a x) : Dead (neg a) x := fun g => ha _
theorem Dead.add (ha : Dead a x) (hb : Dead b x) : Dead (add a b) x := fun g => by
  simp [Tape.back, ha _, hb _]
theorem Dead.mul (ha : Dead a x) (hb : Dead b x) : Dead (mul a b) x := fun g => by
  simp [Tape.back, ha _, hb _]
theorem Dead.div (ha : Dead a x) (hb : Dead b x) : Dead (div a b) x := fun g => by
  simp [Tape.back, ha _, hb _]
theorem Dead.pow {fl : ℝ → ℝ} {p : ℝ} (ha : Dead a x) : Dead (pow fl a p) x := fun g => ha _
theorem Dead.npow {k : ℕ} (ha : Dead a x) : Dead (npow a k) x := fun g => ha _
theorem Dead.tpow (ha : Dead a x) (hb : Dead b x) : Dead (tpow a b) x := fun g => by
  simp [Tape.back, ha _, hb _]
theorem Dead.sel {P : ℝ → Prop} (ha : Dead a x) (hb : Dead b x) : Dead (sel P a b) x := fun g => by
  simp [Tape.back, ha _, hb _]
theorem Dead.sdiv {env : Env} (ha : Dead a x) (hb : Dead b x) : Dead (sdiv env a b) x :=
  ha.div (hb.sel Dead.const)

theorem Dead.sub (ha : Dead a x) (hb : Dead b x) : Dead (sub a b) x := fun g => by
  simp [Tape.back, ha _, hb _]
theorem Dead.sum {n : ℕ} {a : Fin n → Tape} (h : ∀ i, Dead (a i) x) : Dead (sum n a) x := fun g => by
  simp only [Tape.back, h _ g]
  rw [FP.sum_fin]
  simp
theorem Dead.ssqrt {env : Env} (ha : Dead a x) : Dead (ssqrt env a) x := fun g => ha _

theorem Fine.of_dead (h : Dead a x) (he : ∀ y, a.eval y = .fin c) : Fine a (fun _ => c) x :=
  ⟨.of_forall he, 0, hasDerivAt_const _ _, fun g => by rw [h, mul_zero]⟩

/-- The gradient zero is passed on as zero. -/
def Quiet (e : Tape) (x : ℝ) : Prop := e.back x (.fin 0) = .fin 0

theorem Dead.quiet (h : Dead a x) : Quiet a x := h _
theorem Tame.quiet (h : Tame a x c) : Quiet a x := by
  obtain ⟨-, v, hv⟩ := h
  rw [Quiet, hv, zero_mul]

/-- A branch that is not selected matters only through what it does with the gradient zero. -/
theorem Fine.sel_quiet {P : ℝ → Prop} (ha : Quiet a x) (hb : Fine b f x) (hP : ∀ᶠ y in 𝓝 x, ¬ P y) :
    Fine (Tape.sel P a b) f x := by
  obtain ⟨hb, w, h1, hw⟩ := hb
  refine ⟨?_, w, h1, fun g => ?_⟩
  · filter_upwards [hb, hP] with y hb hP
    simp [Tape.eval, hP, hb]
  · rw [Quiet] at ha
    simp [Tape.back, hP.self_of_nhds, ha, hw, FP.add]

theorem Tame.tpow (ha : Tame a x c) (hb : Tame b x c') (h0 : 0 < c) :
    Tame (tpow a b) x (c ^ c') := by
  obtain ⟨e1, v, hv⟩ := ha
  obtain ⟨e2, w, hw⟩ := hb
  refine ⟨by simp [Tape.eval, e1, e2, FP.tpow, FP.pow, h0],
    c' * c ^ (c' - 1) * v + c ^ c' * Real.log c * w, fun g => ?_⟩
  have hb1 : FP.powBase (.fin g) (.fin c) (.fin c') = .fin (g * (c' * c ^ (c' - 1))) := by
    by_cases hp : c' = 0
    · simp [FP.powBase, hp]
    · simp [FP.powBase, hp, FP.pow, h0, FP.mul]
  have hb2 : FP.powExponent (.fin g) (.fin c) (.fin c') = .fin (g * (c ^ c' * Real.log c)) := by
    simp [FP.powExponent, FP.ne0, h0.ne', FP.tpow, FP.pow, h0, FP.mul, FP.log]
  simp only [Tape.back, e1, e2, hb1, hb2, hv, hw, FP.add]
  congr 1
  ring

theorem Tame.sdiv_any {env : Env} (ha : Tame a x c) (hb : Tame b x c') :
    Tame (Tape.sdiv env a b) x (env.sdiv c c') := by
  by_cases h : c' = 0
  · have hs : Tame (Tape.sel (fun y => (b.eval y).ne0) b (Tape.const env.eps)) x env.eps := by
      refine (Tame.sel (P := fun y => (b.eval y).ne0) hb (Tame.const (c := env.eps))).congr ?_
      rw [if_neg]
      simp [hb.1, FP.ne0, h]
    rw [Env.sdiv, if_pos h]
    exact ha.div hs env.eps_pos.ne'
  · rw [Env.sdiv, if_neg h]
    exact ha.sdiv hb h

/-- A power that does not underflow. -/
theorem Fine.pow_fl {fl : ℝ → ℝ} {τ : ℝ} {k : ℕ} (hk : k ≠ 0) (ha : Fine a f x) (h : 0 < f x)
    (hfl : ∀ z, τ ≤ z → fl z = z) (h1 : τ < f x ^ k) (h2 : τ < f x ^ (k - 1)) :
    Fine (Tape.pow fl a k) (fun y => f y ^ k) x := by
  have hae := ha.eval
  have hpos := continuousAt_const.eventually_lt ha.continuousAt h
  have hev : ∀ᶠ y in 𝓝 x, τ < f y ^ k := continuousAt_const.eventually_lt (ha.continuousAt.pow k) h1
  obtain ⟨ha, v, hv, hb⟩ := ha
  refine ⟨?_, k * f x ^ (k - 1) * v, hv.pow k, fun g => ?_⟩
  · filter_upwards [ha, hpos, hev] with y ha hp he
    simp only [Tape.eval, ha, FP.pow, hp, if_true, Real.rpow_natCast]
    rw [hfl _ he.le]
  · have hk' : ((k : ℝ) - 1) = ((k - 1 : ℕ) : ℝ) := by
      rw [Nat.cast_sub (Nat.one_le_iff_ne_zero.2 hk), Nat.cast_one]
    have : (k : ℝ) ≠ 0 := Nat.cast_ne_zero.2 hk
    simp only [Tape.back, hae, this, if_false, FP.pow, h, if_true, hk', Real.rpow_natCast]
    rw [hfl _ h2.le]
    simp only [FP.mul, hb]
    congr 1
    ring

end

namespace Pair

/-- Value of the damping function. -/
noncomputable def dampV (env : Env) (d : Damping) (k : ℕ) (v : DName → ℝ) : ℝ → ℝ → ℝ :=
  let alp := if k = 8 then v .alp + 2 else v .alp
  let rs := if k = 6 then v .rs6 else v .rs8
  match d with
  | .rational => ratF (v .a1) (v .a2) k
  | .zero => fun x r => env.sdiv (zeroF env rs alp x r) (x ^ k)
  | .mzero => fun x r => env.sdiv (mzeroF rs alp (v .bet) x r) (x ^ k)
  | .op => opF (v .a1) (v .a2) (v .bet) k

/-- The damping function is differentiable in the parameters for the radius `R` and order `k`. -/
def DampAt (d : Damping) (k : ℕ) (v : DName → ℝ) (R : ℝ) : Prop :=
  match d with
  | .rational => True
  | .zero => 0 < (if k = 6 then v .rs6 else v .rs8) ∧ 0 ≤ R
  | .mzero => 0 < (if k = 6 then v .rs6 else v .rs8) ∧ 0 ≤ v .bet ∧ 0 < R
  | .op => 0 < v .a1 * √R + v .a2

/-- Value of a call. -/
noncomputable def callV (env : Env) (isNone : DName → Bool) (d : Damping) (k : ℕ) (v : DName → ℝ) :
    ℝ → ℝ → ℝ :=
  if zeroed isNone k then fun _ _ => 0 else dampV env d k v

section
variable {env : Env} {d : Damping} {k : ℕ} {D : Tape} {V : DName → Tape} {R x D0 : ℝ} {fD : ℝ → ℝ}
  {v : ℝ → DName → ℝ} {v0 : DName → ℝ}

theorem dead_damp (hD : Dead D x) (hV : ∀ m, Dead (V m) x) : Dead (damp env d k D R V) x := by
  have hrs : Dead (rsN k V) x := by unfold rsN; split <;> exact hV _
  have ha : Dead (alpN k V) x := by
    unfold alpN
    split
    · exact (hV _).add Dead.const
    · exact hV _
  unfold damp
  cases d with
  | rational =>
    exact Dead.const.div (hD.npow.add (((hV _).mul Dead.const).add (hV _)).npow)
  | zero =>
    exact (Dead.const.div (Dead.const.add (Dead.const.mul
      ((hrs.mul (hD.sdiv Dead.const)).tpow ha)))).sdiv hD.pow
  | mzero =>
    exact (Dead.const.div (Dead.const.add (Dead.const.mul
      (((hD.div (hrs.mul Dead.const)).add ((hV _).mul Dead.const)).tpow ha.neg)))).sdiv hD.pow
  | op =>
    exact (hD.tpow (hV _)).div (((hD.tpow (hV _)).mul hD.pow).add
      ((((((hV _).mul Dead.const).add (hV _))).tpow (hV _)).mul hD.pow))

theorem sdiv_pos {a b : ℝ} (ha : 0 < a) (hb : 0 ≤ b) : 0 < env.sdiv a b := by
  unfold Env.sdiv
  split
  · exact div_pos ha env.eps_pos
  · rename_i h
    exact div_pos ha (lt_of_le_of_ne hb (Ne.symm h))

/-- At a fixed distance nothing special happens in the backward pass. -/
theorem tame_damp (hk : Even k) (hD : Tame D x D0) (hV : ∀ m, Tame (V m) x (v0 m)) (h0 : 0 < D0)
    (hok : DampAt d k v0 R) (hop : d = .op → 0 < env.fl (D0 ^ (k : ℝ))) :
    ∃ c, Tame (damp env d k D R V) x c := by
  have hrs : Tame (rsN k V) x (if k = 6 then v0 .rs6 else v0 .rs8) := by
    unfold rsN; split <;> exact hV _
  have ha : Tame (alpN k V) x (if k = 8 then v0 .alp + 2 else v0 .alp) := by
    unfold alpN
    split
    · exact (hV _).add Tame.const
    · exact hV _
  have hpw : Tame (Tape.pow env.fl D k) x (env.fl (D0 ^ (k : ℝ))) := hD.pow (Or.inl h0)
  unfold damp
  cases d with
  | rational =>
    refine ⟨_, Tame.const.div (hD.npow.add (((hV _).mul Tame.const).add (hV _)).npow) ?_⟩
    exact (add_pos_of_pos_of_nonneg (pow_pos h0 k) (hk.pow_nonneg _)).ne'
  | zero =>
    obtain ⟨h6, hR⟩ := hok
    have hp : 0 < (if k = 6 then v0 .rs6 else v0 .rs8) * env.sdiv D0 R := mul_pos h6 (sdiv_pos h0 hR)
    have ht := (hrs.mul (hD.sdiv_any (env := env) (Tame.const (c := R)))).tpow ha hp
    refine ⟨_, (Tame.const.div (Tame.const.add (Tame.const.mul ht)) ?_).sdiv_any hpw⟩
    exact (fden_pos hp).ne'
  | mzero =>
    obtain ⟨h6, hb, hR⟩ := hok
    have hr : 0 < (if k = 6 then v0 .rs6 else v0 .rs8) * R := mul_pos h6 hR
    have hp : 0 < D0 / ((if k = 6 then v0 .rs6 else v0 .rs8) * R) + v0 .bet * R := by positivity
    have ht := ((hD.div (hrs.mul (Tame.const (c := R))) hr.ne').add
      ((hV .bet).mul (Tame.const (c := R)))).tpow ha.neg hp
    refine ⟨_, (Tame.const.div (Tame.const.add (Tame.const.mul ht)) ?_).sdiv_any hpw⟩
    exact (fden_pos hp).ne'
  | op =>
    have hrad : 0 < v0 .a1 * √R + v0 .a2 := hok
    have hp := hop rfl
    have hab := (((hV .a1).mul (Tame.const (c := √R))).add (hV .a2)).tpow (hV .bet) hrad
    have hrb := hD.tpow (hV .bet) h0
    refine ⟨_, hrb.div ((hrb.mul hpw).add (hab.mul hpw)) ?_⟩
    have := Real.rpow_pos_of_pos h0 (v0 .bet)
    have := Real.rpow_pos_of_pos hrad (v0 .bet)
    positivity

/-- The backward pass through the damping function. -/
theorem fine_damp (hk : Even k) (hk0 : k ≠ 0) (hD : Fine D fD x)
    (hV : ∀ m, Fine (V m) (fun y => v y m) x) (h0 : 0 < fD x) (hok : DampAt d k (v x) R) {τ : ℝ}
    (hfl : ∀ z, τ ≤ z → env.fl z = z)
    (hl : d ≠ .rational → τ < fD x ^ k ∧ τ < fD x ^ (k - 1)) :
    Fine (damp env d k D R V) (fun y => dampV env d k (v y) (fD y) R) x := by
  have hrs : Fine (rsN k V) (fun y => if k = 6 then v y .rs6 else v y .rs8) x := by
    unfold rsN; split <;> exact hV _
  have ha : Fine (alpN k V) (fun y => if k = 8 then v y .alp + 2 else v y .alp) x := by
    unfold alpN
    split
    · exact (hV _).add Fine.const
    · exact hV _
  have hpw : d ≠ .rational → Fine (Tape.pow env.fl D k) (fun y => fD y ^ k) x := fun h =>
    hD.pow_fl hk0 h0 hfl (hl h).1 (hl h).2
  have hpos := continuousAt_const.eventually_lt hD.continuousAt h0
  unfold damp dampV
  cases d with
  | rational =>
    refine Fine.const.div (hD.npow.add (((hV _).mul Fine.const).add (hV _)).npow) ?_
    exact (add_pos_of_pos_of_nonneg (pow_pos h0 k) (hk.pow_nonneg _)).ne'
  | zero =>
    have hpw := hpw (by simp)
    obtain ⟨h6, hR⟩ := hok
    have hp : 0 < (if k = 6 then v x .rs6 else v x .rs8) * env.sdiv (fD x) R :=
      mul_pos h6 (sdiv_pos h0 hR)
    have hs : Fine (Tape.sdiv env D (Tape.const R)) (fun y => env.sdiv (fD y) R) x := by
      have hc : Fine (Tape.sel (fun y => ((Tape.const R).eval y).ne0) (Tape.const R)
          (Tape.const env.eps)) (fun _ => if R = 0 then env.eps else R) x := by
        refine (Fine.sel_const (P := R ≠ 0) (Fine.const (c := R)) (Fine.const (c := env.eps))).congr'
          fun y => ?_
        by_cases hR : R = 0 <;> simp [hR]
      refine (hD.div hc ?_).congr' fun y => rfl
      split
      · exact env.eps_pos.ne'
      · assumption
    have ht := (hrs.mul hs).tpow ha hp
    refine ((Fine.const.div (Fine.const.add (Fine.const.mul ht)) (fden_pos hp).ne').sdiv hpw
      (pow_pos h0 k).ne').congr ?_
    filter_upwards [hpos] with y hy
    have hy' : fD y ^ k ≠ 0 := (pow_pos hy k).ne'
    conv_rhs => rw [Env.sdiv, if_neg hy']
    rfl
  | mzero =>
    have hpw := hpw (by simp)
    obtain ⟨h6, hb, hR⟩ := hok
    have hr : 0 < (if k = 6 then v x .rs6 else v x .rs8) * R := mul_pos h6 hR
    have hp : 0 < fD x / ((if k = 6 then v x .rs6 else v x .rs8) * R) + v x .bet * R := by positivity
    have ht := ((hD.div (hrs.mul (Fine.const (c := R))) hr.ne').add
      ((hV .bet).mul (Fine.const (c := R)))).tpow ha.neg hp
    refine ((Fine.const.div (Fine.const.add (Fine.const.mul ht)) (fden_pos hp).ne').sdiv hpw
      (pow_pos h0 k).ne').congr ?_
    filter_upwards [hpos] with y hy
    have hy' : fD y ^ k ≠ 0 := (pow_pos hy k).ne'
    conv_rhs => rw [Env.sdiv, if_neg hy']
    rfl
  | op =>
    have hpw := hpw (by simp)
    have hrad : 0 < v x .a1 * √R + v x .a2 := hok
    have hab := (((hV .a1).mul (Fine.const (c := √R))).add (hV .a2)).tpow (hV .bet) hrad
    have hrb := hD.tpow (hV .bet) h0
    refine hrb.div ((hrb.mul hpw).add (hab.mul hpw)) ?_
    have := Real.rpow_pos_of_pos h0 (v x .bet)
    have := Real.rpow_pos_of_pos hrad (v x .bet)
    positivity

theorem fine_call {isNone : DName → Bool} (hk : Even k) (hk0 : k ≠ 0) (hD : Fine D fD x)
    (hV : ∀ m, Fine (V m) (fun y => v y m) x) (h0 : 0 < fD x)
    (hok : zeroed isNone k = false → DampAt d k (v x) R) {τ : ℝ}
    (hfl : ∀ z, τ ≤ z → env.fl z = z)
    (hl : d ≠ .rational → τ < fD x ^ k ∧ τ < fD x ^ (k - 1)) :
    Fine (call env isNone d k D R V) (fun y => callV env isNone d k (v y) (fD y) R) x := by
  unfold call callV
  by_cases hz : zeroed isNone k = true
  · simp only [hz, if_true]
    exact Fine.const
  · simp only [hz]
    exact fine_damp hk hk0 hD hV h0 (hok (by simpa using hz)) hfl hl

theorem dead_call {isNone : DName → Bool} (hD : Dead D x) (hV : ∀ m, Dead (V m) x) :
    Dead (call env isNone d k D R V) x := by
  unfold call
  split
  · exact Dead.const
  · exact dead_damp hD hV

theorem quiet_call {isNone : DName → Bool} (h : zeroed isNone k = false → Quiet (damp env d k D R V) x) :
    Quiet (call env isNone d k D R V) x := by
  unfold call
  split
  · exact Dead.const.quiet
  · rename_i hz
    exact h (by simpa using hz)

end

/-! ## Energies -/

section
variable {env : Env} {n c : ℕ} {X : PairSys n c} {d : Damping} {cut x : ℝ}
  {C : Fin n → Fin n → ℝ → ℝ}

/-- Squared distance. -/
noncomputable def sqD (X : PairSys n c) (i j : Fin n) (y : ℝ) : ℝ :=
  ∑ k, (X.posFn i k y - X.posFn j k y) ^ 2

/-- Distance as masked by the code. -/
noncomputable def distV (env : Env) (X : PairSys n c) (i j : Fin n) (y : ℝ) : ℝ :=
  if ok X i j then env.ssqrt (sqD X i j y) else env.eps

/-- Parameters at a value of the scalar. -/
def parV (X : PairSys n c) (y : ℝ) (m : DName) : ℝ := X.parFn m y

/-- Damped inverse power of the distance. -/
noncomputable def tV (env : Env) (X : PairSys n c) (d : Damping) (cut : ℝ) (k : ℕ) (i j : Fin n)
    (y : ℝ) : ℝ :=
  if ok X i j ∧ distV env X i j y ≤ cut then
    callV env X.isNone d k (parV X y) (distV env X i j y) (radius X d i j) else 0

/-- Energy of an atom, if `C` are the C6 coefficients. -/
noncomputable def enV (env : Env) (X : PairSys n c) (C : Fin n → Fin n → ℝ → ℝ) (d : Damping) (cut : ℝ)
    (i : Fin n) (y : ℝ) : ℝ :=
  let e := X.parFn .s6 y * (∑ j, C i j y * tV env X d cut 6 i j y) +
    X.parFn .s8 y * (∑ j, C i j y * (3 * X.Q i * X.Q j) * tV env X d cut 8 i j y)
  if X.isNone .s10 then -0.5 * e
  else -0.5 * (e + X.parFn .s10 y *
    ∑ j, C i j y * (3 * X.Q i * X.Q j) ^ 2 * 49 / 40 * tV env X d cut 10 i j y)

theorem sqD_eq (i j : Fin n) (y : ℝ) :
    (∑ k, X.posFn i k y * X.posFn i k y) + (∑ k, X.posFn j k y * X.posFn j k y) -
      2 * (∑ k, X.posFn i k y * X.posFn j k y) = sqD X i j y := by
  rw [sqD, Finset.mul_sum, ← Finset.sum_add_distrib, ← Finset.sum_sub_distrib]
  refine Finset.sum_congr rfl fun k _ => ?_
  ring

theorem distV_pos (i j : Fin n) (y : ℝ) : 0 < distV env X i j y := by
  unfold distV
  split
  · exact Real.sqrt_pos.2 (lt_max_of_lt_right env.eps_pos)
  · exact env.eps_pos

theorem tame_cdist (i j : Fin n) : Tame (cdist env X i j) x (env.ssqrt (sqD X i j x)) := by
  unfold cdist
  refine (Tame.ssqrt (((Tame.sum fun k => Tame.input.mul Tame.input).add
    (Tame.sum fun k => Tame.input.mul Tame.input)).sub
    (Tame.const.mul (Tame.sum fun k => Tame.input.mul Tame.input)))).congr ?_
  rw [sqD_eq]

theorem tame_distance (i j : Fin n) : Tame (distance env X i j) x (distV env X i j x) :=
  Tame.sel (P := fun _ => ok X i j) (tame_cdist i j) Tame.const

theorem fine_cdist {i j : Fin n} (hi : ∀ k, Fine (pos X i k) (X.posFn i k) x)
    (hj : ∀ k, Fine (pos X j k) (X.posFn j k) x) (h : env.eps < sqD X i j x) :
    Fine (cdist env X i j) (fun y => env.ssqrt (sqD X i j y)) x := by
  unfold cdist
  refine (Fine.ssqrt (((Fine.sum fun k => (hi k).mul (hi k)).add
    (Fine.sum fun k => (hj k).mul (hj k))).sub
    (Fine.const.mul (Fine.sum fun k => (hi k).mul (hj k)))) ?_).congr' fun y => ?_
  · rw [sqD_eq]
    exact h
  · rw [sqD_eq]

/-- The distance of masked pairs passes nothing on. -/
theorem dead_distance {i j : Fin n} (h : ¬ ok X i j) : Dead (distance env X i j) x := by
  intro g
  have := (tame_cdist (env := env) (X := X) (x := x) i j).quiet
  rw [Quiet] at this
  simp [distance, Tape.back, h, this]

/-- Distances are constants of the graph if the positions do not require gradients. -/
theorem fine_distance_const (hg : X.posGrad = false) (hc : ∀ i k y, X.posFn i k y = X.posFn i k x)
    (i j : Fin n) : Fine (distance env X i j) (distV env X i j) x := by
  have hp : ∀ i k, Dead (pos X i k) x := by
    intro i k
    unfold pos
    rw [hg]
    exact Dead.frozen
  have hd : Dead (distance env X i j) x :=
    Dead.sel (Dead.ssqrt (((Dead.sum fun k => (hp i k).mul (hp i k)).add
      (Dead.sum fun k => (hp j k).mul (hp j k))).sub (Dead.const.mul
      (Dead.sum fun k => (hp i k).mul (hp j k))))) Dead.const
  have hv : ∀ y, distV env X i j y = distV env X i j x := by
    intro y
    simp only [distV, sqD, hc _ _ y]
  refine (Fine.of_dead (c := distV env X i j x) hd fun y => ?_).congr' fun y => (hv y).symm
  rw [(tame_distance i j).1, hv]

/-- Conditions for the backward pass to yield the derivative. -/
structure Ok (env : Env) (X : PairSys n c) (C : Fin n → Fin n → ℝ → ℝ) (d : Damping) (cut τ x : ℝ) : Prop where
  par : ∀ m, Fine (par X m) (X.parFn m) x
  c6 : ∀ i j, Fine (c6 X i j) (C i j) x
  dist : ∀ i j, ok X i j → Fine (distance env X i j) (distV env X i j) x
  damp : ∀ i j, ok X i j → ∀ k, k = 6 ∨ k = 8 → zeroed X.isNone k = false →
    DampAt d k (parV X x) (radius X d i j)
  cut : ∀ i j, ok X i j → (∀ᶠ y in 𝓝 x, distV env X i j y ≤ cut) ∨
    ∀ᶠ y in 𝓝 x, ¬ distV env X i j y ≤ cut
  fl : ∀ z, τ ≤ z → env.fl z = z
  large : d ≠ .rational → ∀ i j, ok X i j → ∀ k ∈ [5, 6, 7, 8], τ < distV env X i j x ^ k
  ten : X.isNone .s10 = false → d = .rational
  quiet : ∀ i j, ¬ ok X i j → ∀ k, k = 6 ∨ k = 8 ∨ (k = 10 ∧ X.isNone .s10 = false) →
    Quiet (Pair.call env X.isNone d k (distance env X i j) (radius X d i j) (Pair.par X)) x

variable {τ : ℝ}

theorem fine_damped (h : Ok env X C d cut τ x) {k : ℕ}
    (hk : k = 6 ∨ k = 8 ∨ (k = 10 ∧ X.isNone .s10 = false)) (i j : Fin n) :
    Fine (damped env X d cut k i j) (tV env X d cut k i j) x := by
  unfold damped
  by_cases hij : ok X i j
  · have hD := h.dist i j hij
    have hdamp : Fine (Pair.call env X.isNone d k (distance env X i j) (radius X d i j) (Pair.par X))
        (fun y => callV env X.isNone d k (parV X y) (distV env X i j y) (radius X d i j)) x := by
      refine fine_call (v := parV X) (τ := τ) ?_ ?_ hD h.par (distV_pos i j x) (fun hz => ?_) h.fl
        fun hr => ?_
      · rcases hk with rfl | rfl | ⟨rfl, -⟩ <;> decide
      · rcases hk with rfl | rfl | ⟨rfl, -⟩ <;> decide
      · rcases hk with hk | hk | ⟨-, h10⟩
        · exact h.damp i j hij k (Or.inl hk) hz
        · exact h.damp i j hij k (Or.inr hk) hz
        · rw [h.ten h10]
          trivial
      · have hl := h.large hr i j hij
        rcases hk with rfl | rfl | ⟨-, h10⟩
        · exact ⟨hl 6 (by decide), hl 5 (by decide)⟩
        · exact ⟨hl 8 (by decide), hl 7 (by decide)⟩
        · exact absurd (h.ten h10) hr
    have hle : ∀ᶠ y in 𝓝 x, ((distance env X i j).eval y).le cut ↔ distV env X i j y ≤ cut := by
      filter_upwards [hD.1] with y hy
      rw [hy]
      rfl
    rcases h.cut i j hij with hc | hc
    · refine (Fine.sel_true hdamp (Tame.const (c := 0)) ?_).congr ?_
      · filter_upwards [hc, hle] with y h1 h2
        exact ⟨hij, h2.2 h1⟩
      · filter_upwards [hc] with y h1
        rw [tV, if_pos ⟨hij, h1⟩]
    · refine (Fine.sel_quiet hdamp.tame.quiet (Fine.const (c := 0)) ?_).congr ?_
      · filter_upwards [hc, hle] with y h1 h2 h3
        exact h1 (h2.1 h3.2)
      · filter_upwards [hc] with y h1
        rw [tV, if_neg fun h => h1 h.2]
  · refine (Fine.sel_quiet (h.quiet i j hij k hk) (Fine.const (c := 0))
      (.of_forall fun y h => hij h.1)).congr' fun y => ?_
    rw [tV, if_neg fun h => hij h.1]

theorem fine_energy (h : Ok env X C d cut τ x) (i : Fin n) :
    Fine (energy env X d cut i) (enV env X C d cut i) x := by
  have he := ((h.par .s6).mul (Fine.sum fun j => (h.c6 i j).mul
    (fine_damped h (Or.inl rfl) i j))).add ((h.par .s8).mul (Fine.sum fun j =>
    ((h.c6 i j).mul (Fine.const (c := 3 * X.Q i * X.Q j))).mul
      (fine_damped h (Or.inr (Or.inl rfl)) i j)))
  unfold energy enV
  by_cases h10 : X.isNone .s10 = true
  · simp only [h10, if_true]
    exact Fine.const.mul he
  · have hf : X.isNone .s10 = false := by simpa using h10
    simp only [hf, Bool.false_eq_true, if_false]
    exact Fine.const.mul (he.add ((h.par .s10).mul (Fine.sum fun j =>
      ((((h.c6 i j).mul (Fine.const (c := (3 * X.Q i * X.Q j) ^ 2))).mul
        (Fine.const (c := 49))).div (Fine.const (c := 40)) (by norm_num)).mul
        (fine_damped h (Or.inr (Or.inr ⟨rfl, hf⟩)) i j))))

end

/-! ## NaN -/

section
variable {env : Env} {n c : ℕ} {X : PairSys n c} {d : Damping} {cut x : ℝ}

theorem par_eval (m : DName) : (par X m).eval x = .fin (X.parFn m x) := Tame.input.1

theorem par_nan {m : DName} (h : X.parGrad m = true) : (par X m).back x .nan = .nan := by
  simp [par, input, h, Tape.back]

theorem bad_damped {k : ℕ} {i j : Fin n} (h : ¬ ok X i j)
    (hz : zeroed X.isNone k = false)
    (hb : (damp env d k (distance env X i j) (radius X d i j) (par X)).back x (.fin 0) = .nan) :
    Bad (damped env X d cut k i j) x := by
  intro g
  simp [damped, call, hz, Tape.back, h, hb]

theorem bad_energy_six {i j : Fin n} (h : Bad (damped env X d cut 6 i j) x) :
    Bad (energy env X d cut i) x := by
  unfold energy
  split
  · exact ((Bad.sum j h.mul_right).mul_right.add_left).mul_right
  · exact ((Bad.sum j h.mul_right).mul_right.add_left).add_left.mul_right

theorem bad_energy_eight {i j : Fin n} (h : Bad (damped env X d cut 8 i j) x) :
    Bad (energy env X d cut i) x := by
  unfold energy
  split
  · exact ((Bad.sum j h.mul_right).mul_right.add_right).mul_right
  · exact ((Bad.sum j h.mul_right).mul_right.add_right).add_left.mul_right

theorem sel_ne0_eval {b : Tape} {z : ℝ} (hb : b.eval x = .fin z) :
    ∃ w, w ≠ 0 ∧ (Tape.sel (fun y => (b.eval y).ne0) b (Tape.const env.eps)).eval x = .fin w := by
  by_cases h : z = 0
  · exact ⟨env.eps, env.eps_pos.ne', by simp [Tape.eval, hb, FP.ne0, h]⟩
  · exact ⟨z, h, by simp [Tape.eval, hb, FP.ne0, h]⟩

theorem alpN_eval (k : ℕ) : (alpN k (par X)).eval x =
    .fin (if k = 8 then X.parFn .alp x + 2 else X.parFn .alp x) := by
  unfold alpN
  split <;> simp [Tape.eval, par_eval, FP.add]

theorem rsN_eval (k : ℕ) : (rsN k (par X)).eval x =
    .fin (if k = 6 then X.parFn .rs6 x else X.parFn .rs8 x) := by
  unfold rsN
  split <;> simp [par_eval]

theorem FP.add_zero_nan {a b : FP} (h : a = .nan ∨ b = .nan) : a.add b = .nan := by
  rcases h with rfl | rfl <;> simp

/-- The zero gradient in a branch that is not selected, for an infinite argument. -/
theorem back_inf {t a p : Tape} {al w : ℝ} (ht : t.eval x = .pinf) (ha : a.eval x = .fin al)
    (hal : 0 < al) (hp : Dead p x) (hw : p.eval x = .fin w)
    (h : t.back x (.fin 0) = .nan ∨ a.back x .nan = .nan) :
    (sdiv env (Tape.div (Tape.const 1) (Tape.add (Tape.const 1) (Tape.mul (Tape.const 6)
      (Tape.tpow t (Tape.neg a))))) p).back x (.fin 0) = .nan := by
  obtain ⟨w', hw0, hw'⟩ := sel_ne0_eval (env := env) hw
  have hal2 : ¬ 0 < -al - 1 := by linarith
  have hal3 : -al - 1 ≠ 0 := by linarith
  have hpow : (FP.pinf).tpow (.fin (-al)) = .fin 0 := by
    simp [FP.tpow, FP.pow, hal.ne', hal.le, not_lt.2 hal.le]
  have hbase : FP.powBase (.fin 0) .pinf (.fin (-al)) = .fin 0 := by
    simp [FP.powBase, FP.pow, hal.ne', hal2, hal3, FP.mul]
  have hexp : FP.powExponent (.fin 0) .pinf (.fin (-al)) = .nan := by
    simp [FP.powExponent, FP.ne0, FP.tpow, FP.pow, FP.log, FP.mul, hal.ne', hal.le, not_lt.2 hal.le]
  have hd : ∀ g, (Tape.sel (fun y => (p.eval y).ne0) p (Tape.const env.eps)).back x g = .fin 0 :=
    hp.sel Dead.const
  have h0 : FP.div (.fin 0) (.fin w') = .fin 0 := by simp [FP.div, hw0]
  have hf : (Tape.div (Tape.const 1) (Tape.add (Tape.const 1) (Tape.mul (Tape.const 6)
      (Tape.tpow t (Tape.neg a))))).back x (.fin 0) = .nan := by
    have e1 : (Tape.add (Tape.const 1) (Tape.mul (Tape.const 6)
        (Tape.tpow t (Tape.neg a)))).eval x = .fin 1 := by
      show FP.add (.fin 1) (FP.mul (.fin 6) (FP.tpow (t.eval x) (a.eval x).neg)) = _
      rw [ht, ha, FP.neg, hpow]
      simp [FP.mul, FP.add]
    have e2 : (Tape.tpow t (Tape.neg a)).back x (.fin 0) = .nan := by
      show FP.add (t.back x (FP.powBase (.fin 0) (t.eval x) (a.eval x).neg))
        (a.back x (FP.powExponent (.fin 0) (t.eval x) (a.eval x).neg).neg) = _
      rw [ht, ha, FP.neg, hbase, hexp, FP.nan_neg]
      exact FP.add_zero_nan h
    rw [Tape.back, e1]
    have e3 : (FP.fin 0).neg.mul ((((Tape.const 1).eval x).div (.fin 1)).div (.fin 1)) = .fin 0 := by
      simp [Tape.eval, FP.neg, FP.div, FP.mul]
    rw [e3]
    have e4 : (FP.fin 0).mul (.fin 6) = .fin 0 := by simp [FP.mul]
    have e5 : (Tape.mul (Tape.const 6) (Tape.tpow t (Tape.neg a))).back x (.fin 0) = .nan := by
      rw [Tape.back]
      show FP.add _ ((Tape.tpow t (Tape.neg a)).back x ((FP.fin 0).mul (.fin 6))) = _
      rw [e4, e2, FP.add_nan]
    have e6 : (Tape.add (Tape.const 1) (Tape.mul (Tape.const 6)
        (Tape.tpow t (Tape.neg a)))).back x (.fin 0) = .nan := by
      rw [Tape.back, e5, FP.add_nan]
    rw [e6, FP.add_nan]
  rw [sdiv, Tape.back, hd, hw', h0, hf]
  rfl

/-- The zero gradient of a masked pair with a vanishing radius becomes NaN for the scaling of the radius
and for the exponent. -/
theorem mzero_nan {k : ℕ} {i j : Fin n} (h : ¬ ok X i j) (hR : radius X .mzero i j = 0)
    (ha : 0 < X.parFn .alp x)
    (hg : (rsN k (par X)).back x .nan = .nan ∨ (alpN k (par X)).back x .nan = .nan) :
    (damp env .mzero k (distance env X i j) (radius X .mzero i j) (par X)).back x (.fin 0) = .nan := by
  obtain ⟨D, hDdef⟩ : ∃ D, D = distance env X i j := ⟨_, rfl⟩
  have hD0 : D.eval x = .fin env.eps := by
    rw [hDdef, (tame_distance i j).1, distV, if_neg h]
  have hdead : Dead D x := hDdef ▸ dead_distance h
  have he := env.eps_pos
  obtain ⟨al, hal, hal0⟩ : ∃ al, (alpN k (par X)).eval x = .fin al ∧ 0 < al :=
    ⟨_, alpN_eval k, by split <;> positivity⟩
  obtain ⟨rs, hrs⟩ : ∃ rs, (rsN k (par X)).eval x = .fin rs := ⟨_, rsN_eval k⟩
  have hpw : (Tape.pow env.fl D k).eval x = .fin (env.fl (env.eps ^ (k : ℝ))) := by
    simp [Tape.eval, hD0, FP.pow, he]
  rw [← hDdef, hR]
  refine back_inf ?_ hal hal0 hdead.pow hpw (hg.imp (fun hg => ?_) id)
  · simp [Tape.eval, hD0, hrs, par_eval, FP.mul, FP.div, he, FP.add]
  · simp [Tape.back, Tape.eval, hD0, hrs, par_eval, FP.mul, FP.div, he, FP.add, hdead _, hg, FP.neg]

/-- The zero gradient of a masked pair becomes NaN in optimised power damping if the power of the
smallest distance underflows. -/
theorem op_nan {k : ℕ} {i j : Fin n} (h : ¬ ok X i j) (hfl : env.fl (env.eps ^ (k : ℝ)) = 0)
    (hr : 0 < X.parFn .a1 x * √(radius X .op i j) + X.parFn .a2 x)
    (hg : X.parGrad .bet = true ∨ (X.parFn .bet x ≠ 0 ∧ (X.parGrad .a1 = true ∨ X.parGrad .a2 = true))) :
    (damp env .op k (distance env X i j) (radius X .op i j) (par X)).back x (.fin 0) = .nan := by
  obtain ⟨D, hDdef⟩ : ∃ D, D = distance env X i j := ⟨_, rfl⟩
  have hD0 : D.eval x = .fin env.eps := by
    rw [hDdef, (tame_distance i j).1, distV, if_neg h]
  have hdead : Dead D x := hDdef ▸ dead_distance h
  have he := env.eps_pos
  have hpw : (Tape.pow env.fl D k).eval x = .fin 0 := by
    simp only [Tape.eval, hD0, FP.pow, he, if_true, hfl]
  have hpd : Dead (Tape.pow env.fl D k) x := hdead.pow
  rw [← hDdef]
  obtain ⟨p, hp⟩ : ∃ p, p = Tape.pow env.fl D k := ⟨_, rfl⟩
  have hb := Real.rpow_pos_of_pos he (X.parFn .bet x)
  obtain ⟨rad, hrad⟩ : ∃ r, r = Tape.add (Tape.mul (par X .a1) (Tape.const √(radius X .op i j)))
    (par X .a2) := ⟨_, rfl⟩
  have hre : rad.eval x = .fin (X.parFn .a1 x * √(radius X .op i j) + X.parFn .a2 x) := by
    simp [hrad, Tape.eval, par_eval, FP.mul, FP.add]
  have hrn : X.parGrad .a1 = true ∨ X.parGrad .a2 = true → rad.back x .nan = .nan := by
    intro hg
    rw [hrad]
    rcases hg with hg | hg <;> simp [Tape.back, Tape.eval, par_eval, par_nan hg, FP.mul]
  generalize X.parFn .a1 x * √(radius X .op i j) + X.parFn .a2 x = rv at *
  unfold damp
  simp only
  rw [← hp, ← hrad]
  rw [← hp] at hpw hpd
  have hrb : (Tape.tpow D (par X .bet)).eval x = .fin (env.eps ^ X.parFn .bet x) := by
    simp [Tape.eval, hD0, par_eval, FP.tpow, FP.pow, he]
  have hab : (Tape.tpow rad (par X .bet)).eval x = .fin (rv ^ X.parFn .bet x) := by
    simp [Tape.eval, hre, par_eval, FP.tpow, FP.pow, hr]
  have hrbn : X.parGrad .bet = true → (Tape.tpow D (par X .bet)).back x .nan = .nan := by
    intro hg
    simp only [Tape.back, hD0, par_eval, hdead _]
    simp [FP.powExponent, FP.ne0, he.ne', FP.nan_mul, par_nan hg]
  have habn : (X.parFn .bet x ≠ 0 ∧ (X.parGrad .a1 = true ∨ X.parGrad .a2 = true)) →
      (Tape.tpow rad (par X .bet)).back x .nan = .nan := by
    rintro ⟨h0, hg⟩
    simp [Tape.back, hre, par_eval, FP.powBase, h0, hrn hg]
  generalize Tape.tpow D (par X .bet) = rb at *
  generalize Tape.tpow rad (par X .bet) = ab at *
  have hE : (Tape.add (Tape.mul rb p) (Tape.mul ab p)).eval x = .fin 0 := by
    simp [Tape.eval, hrb, hab, hpw, FP.mul, FP.add]
  have h00 : FP.div (.fin 0) (.fin 0) = .nan := by simp [FP.div]
  rw [Tape.back, hE, h00]
  refine FP.add_zero_nan (hg.imp hrbn fun hg => ?_)
  have : (FP.fin 0).neg.mul (((rb.eval x).div (.fin 0)).div (.fin 0)) = .nan := by
    simp [hrb, FP.div, hb, FP.neg, FP.mul]
  rw [this]
  simp [Tape.back, hpw, habn hg]

end

end Pair
end Tape
end TadDftd4
