import Verif.Lemmas.HessianWeights
import Verif.Lemmas.AutogradEnergy

/-!
# Second backward pass through the energy
-/

set_option linter.unusedSimpArgs false

open scoped Classical Topology

namespace TadDftd4

open Tensor

/-- The system with other inputs, for a value of the first parameter. -/
def GradSys.moved {n : ℕ} (Y : GradSys n) (p : Fin n → Fin 3 → ℝ → ℝ → ℝ) (c q : Fin n → ℝ → ℝ → ℝ)
    (s : ℝ) : GradSys n :=
  { Y with posFn := fun i k => p i k s, cnFn := fun i => c i s, qFn := fun i => q i s }

namespace Tape

variable {G : GradCfg} {n : ℕ} {X : GradSys n} {x : ℝ}

/-! ## Numbers -/

theorem Tame2.cdist (i j : Fin n) : Tame2 (cdist G X i j) x ((X.mol x).r G.env.eps i j) := by
  unfold Tape.cdist
  refine (Tame2.ssqrt (((Tame2.sum fun k => Tame2.input.mul Tame2.input).add
    (Tame2.sum fun k => Tame2.input.mul Tame2.input)).sub
    (Tame2.const.mul (Tame2.sum fun k => Tame2.input.mul Tame2.input)))).congr ?_
  rw [distSq]
  rfl

theorem Tame2.distance (i j : Fin n) : Tame2 (distance G X i j) x (dV G X i j x) :=
  Tame2.sel (P := fun _ => pairOk X i j) (Tame2.cdist i j) Tame2.const

theorem Tame2.rational {k : ℕ} (hk : Even k) (i j : Fin n) :
    Tame2 (rational G X k i j) x (1 / (dV G X i j x ^ k + rad2 G X i j ^ k)) :=
  Tame2.const.div ((Tame2.distance i j).npow.add Tame2.const) (denom_pos hk (dV_pos i j x)).ne'

theorem Tame2.damped {k : ℕ} (hk : Even k) (i j : Fin n) :
    Tame2 (damped G X k i j) x (tV G X k i j x) := by
  unfold Tape.damped
  refine (Tame2.sel (P := fun y => pairOk X i j ∧ ((Tape.distance G X i j).eval y).le G.cut2)
    (Tame2.rational hk i j) (Tame2.const (c := 0))).congr ?_
  rw [(Tame2.distance i j).eval]
  rfl

/-- Conditions for finite second derivatives; they do not concern the geometry. -/
structure FinOk2 (G : GradCfg) (X : GradSys n) (x : ℝ) : Prop where
  charged : ∀ i j, WOk2 G X x i j (X.qFn i x)
  neutral : ∀ i j, WOk2 G X x i j 0
  radii : ∀ i j, 0 < radius G X i j

theorem Tame2.C (h : FinOk2 G X x) (i j : Fin n) :
    Tame2 (Tape.c6 G X (rc G) X.q i j) x (CV G X i j x) :=
  Tame2.c6 rfl (fun _ => Tame2.input) (h.charged i j) (h.charged j i)

theorem Tame2.C0 (h : FinOk2 G X x) (i j : Fin n) :
    Tame2 (Tape.c6 G X (rc G) (fun _ => Tape.const 0) i j) x (CV0 G X i j x) :=
  Tame2.c6 (d := fun _ => 0) rfl (fun _ => Tame2.const) (h.neutral i j) (h.neutral j i)

theorem Tame2.twoBody (h : FinOk2 G X x) (i : Fin n) : Tame2 (twoBody G X (rc G) i) x (e2V G X i x) := by
  unfold Tape.twoBody e2V
  have h6 : Even 6 := by decide
  have h8 : Even 8 := by decide
  have h10 : Even 10 := by decide
  have e6 := (Tame2.const (c := G.s6)).mul (Tame2.sum fun j => (Tame2.C h i j).mul (Tame2.damped (G := G)
    (X := X) h6 i j))
  have e8 := (Tame2.const (c := G.s8)).mul (Tame2.sum fun j => ((Tame2.C h i j).mul
    (Tame2.const (c := 3 * X.Q i * X.Q j))).mul (Tame2.damped (G := G) (X := X) h8 i j))
  cases G.s10 with
  | none => exact Tame2.const.mul (e6.add e8)
  | some s10 =>
    exact Tame2.const.mul ((e6.add e8).add (Tame2.const.mul (Tame2.sum fun j =>
      ((((Tame2.C h i j).mul (Tame2.const (c := (3 * X.Q i * X.Q j) ^ 2))).mul
        (Tame2.const (c := 49))).div (Tame2.const (c := 40)) (by norm_num)).mul
        (Tame2.damped h10 i j))))

theorem Tame2.c9 (h : FinOk2 G X x) (i j k : Fin n) : Tame2 (c9 G X (rc G) i j k) x (c9V G X i j k x) :=
  Tame2.ssqrt (((Tame2.C0 h i j).mul (Tame2.C0 h i k)).mul (Tame2.C0 h j k)).abs

theorem Tame2.dist2 (i j : Fin n) : Tame2 (dist2 G X i j) x (dV G X i j x ^ 2) :=
  (Tame2.distance i j).npow

theorem Tame2.r2 (i j k : Fin n) : Tame2 (r2 G X i j k) x (r2V G X i j k x) :=
  ((Tame2.dist2 i j).mul (Tame2.dist2 i k)).mul (Tame2.dist2 j k)

theorem Tame2.r1 (i j k : Fin n) : Tame2 (r1 G X i j k) x (√(r2V G X i j k x)) :=
  (Tame2.r2 i j k).sqrt (r2V_pos i j k x)

theorem Tame2.r3 (i j k : Fin n) : Tame2 (r3 G X i j k) x (r3V G X i j k x) :=
  Tame2.sel (P := fun _ => tripleOk X i j k) ((Tame2.r1 i j k).mul (Tame2.r2 i j k)) Tame2.const

theorem Tame2.r5 (i j k : Fin n) : Tame2 (r5 G X i j k) x (r5V G X i j k x) :=
  Tame2.sel (P := fun _ => tripleOk X i j k) ((Tame2.r2 i j k).mul (Tame2.r3 i j k)) Tame2.const

theorem Tame2.fdamp (h : ∀ i j, 0 < radius G X i j) (i j k : Fin n) :
    Tame2 (fdamp G X i j k) x (fV G X i j k x) := by
  have hrr : Tame2 (Tape.sel (fun _ => tripleOk X i j k) (Tape.r1 G X i j k) (Tape.const 1)) x
      (rrV G X i j k x) := Tame2.sel (P := fun _ => tripleOk X i j k) (Tame2.r1 i j k) Tame2.const
  have ht := (Tame2.const (c := 1)).mul (Tame2.sdiv (env := G.env) (Tame2.const (c := r0V G X i j k)) hrr
    (rrV_pos i j k x).ne')
  have hp := ht.pow (fl := id) (p := G.alp / 3) (Or.inl (tV_pos h i j k x))
  exact Tame2.sel (P := fun _ => tripleOk X i j k) ((Tame2.const (c := 1)).div
    ((Tame2.const (c := 1)).add ((Tame2.const (c := 6)).mul hp)) (fden_pos (tV_pos h i j k x)).ne')
    (Tame2.const (c := 0))

theorem Tame2.angle (i j k : Fin n) : Tame2 (angle G X i j k) x (sV G X i j k x) := by
  have a := Tame2.dist2 (G := G) (X := X) (x := x) i j
  have b := Tame2.dist2 (G := G) (X := X) (x := x) i k
  have c := Tame2.dist2 (G := G) (X := X) (x := x) j k
  exact Tame2.sel (P := fun _ => tripleOk X i j k)
    ((((a.add c).sub b).mul ((a.sub c).add b)).mul ((a.neg.add c).add b)) (Tame2.const (c := 0))

theorem Tame2.ang (i j k : Fin n) : Tame2 (ang G X i j k) x (angV G X i j k x) := by
  unfold Tape.ang
  refine (Tame2.sel (P := fun y => ((tripleOk X i j k ∧
    ((Tape.dist2 G X i j).eval y).le (G.cut3 * G.cut3)) ∧
      ((Tape.dist2 G X j k).eval y).le (G.cut3 * G.cut3)) ∧
        ((Tape.dist2 G X j k).eval y).le (G.cut3 * G.cut3))
    ((((Tame2.const (c := 0.375)).mul (Tame2.angle i j k)).div (Tame2.r5 i j k) (r5V_pos i j k x).ne').add
      ((Tame2.const (c := 1)).div (Tame2.r3 i j k) (r3V_pos i j k x).ne')) (Tame2.const (c := 0))).congr ?_
  rw [(Tame2.dist2 i j).eval, (Tame2.dist2 j k).eval]
  exact if_congr Iff.rfl rfl rfl

theorem Tame2.threeBody (h : FinOk2 G X x) (i : Fin n) :
    Tame2 (threeBody G X (rc G) i) x (e3V G X i x) :=
  (Tame2.sum fun j => Tame2.sum fun k => (((Tame2.ang i j k).mul (Tame2.fdamp h.radii i j k)).mul
    Tame2.const).mul (Tame2.c9 h i j k)).div Tame2.const (by norm_num)

/-- Value and finite second derivatives, whatever the geometry. -/
theorem Tame2.energy (h : FinOk2 G X x) (hcut : 0 ≤ G.cut3) (i : Fin n) :
    Tame2 (energy G X (rc G) i) x (Spec.energy G.S (X.mol x) i) :=
  ((Tame2.const.add (Tame2.twoBody h i)).add (Tame2.threeBody h i)).congr (energyV_eq hcut i x)

/-! ## Derivatives -/

section
variable {e : Tape} {F : ℝ → ℝ → ℝ}

/-- A condition on a quantity that is not at its threshold. -/
theorem Fine2.le_or (h : Fine2 e F) {c : ℝ} (hne : F 0 0 ≠ c) :
    ((∀ᶠ t in 𝓝 0, (e.eval t).le c) ∧ ∀ᶠ t in 𝓝 0, ∀ᶠ s in 𝓝 0, F s t ≤ c) ∨
      ((∀ᶠ t in 𝓝 0, ¬ (e.eval t).le c) ∧ ∀ᶠ t in 𝓝 0, ∀ᶠ s in 𝓝 0, ¬ F s t ≤ c) := by
  rcases lt_or_gt_of_ne hne with hl | hl
  · have h2 := h.eventually (eventually_lt_nhds hl)
    refine Or.inl ⟨?_, h2.mono fun t ht => ht.mono fun s hs => le_of_lt hs⟩
    filter_upwards [h.1, h2] with t h3 h4
    rw [h3]
    exact le_of_lt h4.self_of_nhds
  · have h2 := h.eventually (eventually_gt_nhds hl)
    refine Or.inr ⟨?_, h2.mono fun t ht => ht.mono fun s hs => not_le.2 hs⟩
    filter_upwards [h.1, h2] with t h3 h4
    rw [h3]
    exact not_le.2 h4.self_of_nhds

end

variable {p : Fin n → Fin 3 → ℝ → ℝ → ℝ} {c q : Fin n → ℝ → ℝ → ℝ}

/-- Conditions on the positions for the second backward pass. -/
structure PosOk2 (G : GradCfg) (X : GradSys n) (p : Fin n → Fin 3 → ℝ → ℝ → ℝ)
    (c q : Fin n → ℝ → ℝ → ℝ) : Prop where
  zero : X.moved p c q 0 = X
  pos : ∀ i k, X.Z i ≠ 0 → Fine2 (X.pos i k) (p i k)
  apart : ∀ i j, X.Z i ≠ 0 → X.Z j ≠ 0 → i ≠ j →
    G.env.eps < dist ((X.mol 0).pos i) ((X.mol 0).pos j) ^ 2

namespace PosOk2
variable (h : PosOk2 G X p c q)
include h

theorem cdist {i j : Fin n} (hp : pairOk X i j) :
    Fine2 (cdist G X i j) (fun s t => ((X.moved p c q s).mol t).r G.env.eps i j) := by
  unfold Tape.cdist
  have hI := fun k => h.pos i k hp.1
  have hJ := fun k => h.pos j k hp.2.1
  have h0 := h.apart i j hp.1 hp.2.1 hp.2.2
  refine (Fine2.ssqrt (((Fine2.sum fun k => (hI k).mul (hI k)).add
    (Fine2.sum fun k => (hJ k).mul (hJ k))).sub
    (Fine2.const.mul (Fine2.sum fun k => (hI k).mul (hJ k)))) ?_).congr' fun s t => ?_
  · have := distSq (X := X.moved p c q 0) i j 0
    rw [h.zero] at this
    have h1 := lt_of_lt_of_eq h0 this.symm
    rw [← h.zero] at h1
    exact h1
  · have := distSq (X := X.moved p c q s) i j t
    show G.env.ssqrt (_ + _ - 2 * _) = _
    exact congrArg G.env.ssqrt this

theorem distance (i j : Fin n) :
    Fine2 (distance G X i j) (fun s t => dV G (X.moved p c q s) i j t) := by
  by_cases hp : pairOk X i j
  · refine (Fine2.sel_true (P := fun _ => pairOk X i j) (h.cdist hp) (Tame2.const (c := G.env.eps))
      (.of_forall fun _ => hp)).congr' fun s t => ?_
    have hp' : pairOk (X.moved p c q s) i j := hp
    rw [dV, if_pos hp']
  · refine (Fine2.sel_false (P := fun _ => pairOk X i j) (Tame2.cdist i j)
      (Fine2.const (c := G.env.eps)) (.of_forall fun _ => hp)).congr' fun s t => ?_
    have hp' : ¬ pairOk (X.moved p c q s) i j := hp
    rw [dV, if_neg hp']

theorem dV0 (i j : Fin n) : dV G (X.moved p c q 0) i j 0 = dV G X i j 0 := by rw [h.zero]

theorem dist2 (i j : Fin n) :
    Fine2 (dist2 G X i j) (fun s t => dV G (X.moved p c q s) i j t ^ 2) := (h.distance i j).npow

theorem r2 (i j k : Fin n) : Fine2 (r2 G X i j k) (fun s t => r2V G (X.moved p c q s) i j k t) :=
  ((h.dist2 i j).mul (h.dist2 i k)).mul (h.dist2 j k)

theorem r1 (i j k : Fin n) : Fine2 (r1 G X i j k) (fun s t => √(r2V G (X.moved p c q s) i j k t)) :=
  (h.r2 i j k).sqrt (r2V_pos i j k 0)

theorem r3 (i j k : Fin n) : Fine2 (r3 G X i j k) (fun s t => r3V G (X.moved p c q s) i j k t) :=
  Fine2.sel_const ((h.r1 i j k).mul (h.r2 i j k)) Fine2.const

theorem r5 (i j k : Fin n) : Fine2 (r5 G X i j k) (fun s t => r5V G (X.moved p c q s) i j k t) :=
  Fine2.sel_const ((h.r2 i j k).mul (h.r3 i j k)) Fine2.const

theorem angle (i j k : Fin n) :
    Fine2 (angle G X i j k) (fun s t => sV G (X.moved p c q s) i j k t) := by
  have a := h.dist2 i j
  have b := h.dist2 i k
  have c := h.dist2 j k
  exact Fine2.sel_const
    ((((a.add c).sub b).mul ((a.sub c).add b)).mul ((a.neg.add c).add b)) (Fine2.const (c := 0))

theorem cut3_ne (hcut : 0 ≤ G.cut3) (hne : ∀ i j, pairOk X i j → dV G X i j 0 ≠ G.cut3) {i j : Fin n}
    (hp : pairOk X i j) : dV G (X.moved p c q 0) i j 0 ^ 2 ≠ G.cut3 * G.cut3 := by
  rw [← sq, h.dV0]
  intro he
  exact hne i j hp ((pow_left_inj₀ (dV_pos i j 0).le hcut two_ne_zero).1 he)

/-- The condition of the angular term in the graph, and its value, near the origin. -/
theorem angC_or (hcut : 0 ≤ G.cut3) (hne : ∀ i j, pairOk X i j → dV G X i j 0 ≠ G.cut3) (i j k : Fin n) :
    ((∀ᶠ t in 𝓝 0, (((tripleOk X i j k ∧
    ((Tape.dist2 G X i j).eval t).le (G.cut3 * G.cut3)) ∧
      ((Tape.dist2 G X j k).eval t).le (G.cut3 * G.cut3)) ∧
        ((Tape.dist2 G X j k).eval t).le (G.cut3 * G.cut3))) ∧
      ∀ᶠ t in 𝓝 0, ∀ᶠ s in 𝓝 0, angC G (X.moved p c q s) i j k t) ∨
    ((∀ᶠ t in 𝓝 0, ¬ (((tripleOk X i j k ∧
    ((Tape.dist2 G X i j).eval t).le (G.cut3 * G.cut3)) ∧
      ((Tape.dist2 G X j k).eval t).le (G.cut3 * G.cut3)) ∧
        ((Tape.dist2 G X j k).eval t).le (G.cut3 * G.cut3))) ∧
      ∀ᶠ t in 𝓝 0, ∀ᶠ s in 𝓝 0, ¬ angC G (X.moved p c q s) i j k t) := by
  by_cases ht : tripleOk X i j k
  · have n1 := h.cut3_ne hcut hne (i := i) (j := j) ⟨ht.1, ht.2.1, ht.2.2.2.1⟩
    have n2 := h.cut3_ne hcut hne (i := j) (j := k) ⟨ht.2.1, ht.2.2.1, ht.2.2.2.2.2⟩
    rcases (h.dist2 i j).le_or n1 with ⟨a1, b1⟩ | ⟨a1, b1⟩
    · rcases (h.dist2 j k).le_or n2 with ⟨a2, b2⟩ | ⟨a2, b2⟩
      · refine Or.inl ⟨?_, ?_⟩
        · filter_upwards [a1, a2] with t h1 h2
          exact ⟨⟨⟨ht, h1⟩, h2⟩, h2⟩
        · filter_upwards [b1, b2] with t h1 h2
          filter_upwards [h1, h2] with s h1 h2
          exact ⟨⟨⟨ht, h1⟩, h2⟩, h2⟩
      · exact Or.inr ⟨a2.mono fun t h1 h2 => h1 h2.2,
          b2.mono fun t h1 => h1.mono fun s h1 h2 => h1 h2.2⟩
    · exact Or.inr ⟨a1.mono fun t h1 h2 => h1 h2.1.1.2,
        b1.mono fun t h1 => h1.mono fun s h1 h2 => h1 h2.1.1.2⟩
  · exact Or.inr ⟨.of_forall fun t hh => ht hh.1.1.1,
      .of_forall fun t => .of_forall fun s hh => ht hh.1.1.1⟩

theorem ang (hcut : 0 ≤ G.cut3) (hne : ∀ i j, pairOk X i j → dV G X i j 0 ≠ G.cut3) (i j k : Fin n) :
    Fine2 (ang G X i j k) (fun s t => angV G (X.moved p c q s) i j k t) := by
  have hin := ((((Fine2.const (c := 0.375)).mul (h.angle i j k)).div (h.r5 i j k)
    (r5V_pos i j k 0).ne').add ((Fine2.const (c := 1)).div (h.r3 i j k) (r3V_pos i j k 0).ne'))
  unfold Tape.ang
  rcases h.angC_or hcut hne i j k with ⟨h0, hc⟩ | ⟨h0, hc⟩
  · refine (Fine2.sel_true hin (Tame2.const (c := 0)) h0).congr ?_
    filter_upwards [hc] with t ht
    filter_upwards [ht] with s h2
    rw [angV, if_pos h2]
  · refine (Fine2.sel_false hin.tame (Fine2.const (c := 0)) h0).congr ?_
    filter_upwards [hc] with t ht
    filter_upwards [ht] with s h2
    rw [angV, if_neg h2]

end PosOk2

/-- Conditions for the second backward pass to yield the mixed derivative. -/
structure GenOk2 (G : GradCfg) (X : GradSys n) (p : Fin n → Fin 3 → ℝ → ℝ → ℝ)
    (c q : Fin n → ℝ → ℝ → ℝ) : Prop where
  base : GenOk G X 0
  zero : X.moved p c q 0 = X
  pos : ∀ i k, X.Z i ≠ 0 → Fine2 (X.pos i k) (p i k)
  cn : ∀ i, Fine2 (X.cn i) (c i)
  q : ∀ i, Fine2 (X.q i) (q i)

namespace GenOk2
variable (h : GenOk2 G X p c q)
include h

theorem posOk2 : PosOk2 G X p c q := ⟨h.zero, h.pos, h.base.generic.apart⟩

theorem cut3 (i j : Fin n) (hp : pairOk X i j) : dV G X i j 0 ≠ G.cut3 := by
  rw [h.base.dV_eq hp]
  exact h.base.generic.cut3 i j hp.1 hp.2.1 hp.2.2

theorem q0 (i : Fin n) : q i 0 0 = X.qFn i 0 := by
  have := congrArg (fun Y : GradSys n => Y.qFn i 0) h.zero
  exact this

theorem finOk2 : FinOk2 G X 0 where
  charged i _ := ⟨powOk2_id h.base.fl, normOk_id h.base.fl, h.base.charge i⟩
  neutral i _ := ⟨powOk2_id h.base.fl, normOk_id h.base.fl, h.base.charge0 i⟩
  radii := h.base.radii

theorem C (i j : Fin n) :
    Fine2 (c6 G X (rc G) X.q i j) (fun s t => CV G (X.moved p c q s) i j t) :=
  Fine2.c6 rfl h.base.fl h.cn h.base.scale h.base.refc h.q
    (fun i => by rw [h.q0]; exact h.base.charge i)
    fun i hr => by rw [h.q0]; exact h.base.generic.charge i (h.base.real hr)

theorem C0 (i j : Fin n) :
    Fine2 (c6 G X (rc G) (fun _ => const 0) i j) (fun s t => CV0 G (X.moved p c q s) i j t) :=
  Fine2.c6 (d := fun _ _ _ => 0) rfl h.base.fl h.cn h.base.scale h.base.refc (fun _ => Fine2.const)
    h.base.charge0 fun i hr => by rw [zero_add]; exact h.base.generic.zeff i (h.base.real hr)

theorem damped {k : ℕ} (hk : Even k) (i j : Fin n) :
    Fine2 (damped G X k i j) (fun s t => tV G (X.moved p c q s) k i j t) := by
  have hd := h.posOk2.distance i j
  by_cases hp : pairOk X i j
  · have hr : Fine2 (rational G X k i j)
        (fun s t => 1 / (dV G (X.moved p c q s) i j t ^ k + rad2 G X i j ^ k)) :=
      Fine2.const.div (hd.npow.add Fine2.const) (denom_pos hk (dV_pos i j 0)).ne'
    have hcut : dV G (X.moved p c q 0) i j 0 ≠ G.cut2 := by
      rw [h.posOk2.dV0, h.base.dV_eq hp]
      exact h.base.generic.cut2 i j hp.1 hp.2.1 hp.2.2
    unfold Tape.damped
    rcases hd.le_or hcut with ⟨h0, h1⟩ | ⟨h0, h1⟩
    · refine (Fine2.sel_true hr (Tame2.const (c := 0)) (h0.mono fun t ht => ⟨hp, ht⟩)).congr ?_
      filter_upwards [h1] with t ht
      filter_upwards [ht] with s h3
      have hp' : pairOk (X.moved p c q s) i j := hp
      rw [tV, if_pos ⟨hp', h3⟩]
      rfl
    · refine (Fine2.sel_false hr.tame (Fine2.const (c := 0))
        (h0.mono fun t ht h4 => ht h4.2)).congr ?_
      filter_upwards [h1] with t ht
      filter_upwards [ht] with s h3
      rw [tV, if_neg fun h4 => h3 h4.2]
  · unfold Tape.damped
    refine (Fine2.sel_false (Tame2.rational hk i j) (Fine2.const (c := 0))
      (.of_forall fun y h' => hp h'.1)).congr' fun s t => ?_
    rw [tV, if_neg fun h' => hp h'.1]

theorem twoBody (i : Fin n) :
    Fine2 (twoBody G X (rc G) i) (fun s t => e2V G (X.moved p c q s) i t) := by
  unfold Tape.twoBody e2V
  have h6 : Even 6 := by decide
  have h8 : Even 8 := by decide
  have h10 : Even 10 := by decide
  have e6 := (Fine2.const (c := G.s6)).mul (Fine2.sum fun j => (h.C i j).mul (h.damped h6 i j))
  have e8 := (Fine2.const (c := G.s8)).mul (Fine2.sum fun j => ((h.C i j).mul
    (Fine2.const (c := 3 * X.Q i * X.Q j))).mul (h.damped h8 i j))
  cases G.s10 with
  | none => exact Fine2.const.mul (e6.add e8)
  | some s10 =>
    exact Fine2.const.mul ((e6.add e8).add (Fine2.const.mul (Fine2.sum fun j =>
      ((((h.C i j).mul (Fine2.const (c := (3 * X.Q i * X.Q j) ^ 2))).mul
        (Fine2.const (c := 49))).div (Fine2.const (c := 40)) (by norm_num)).mul
        (h.damped h10 i j))))

theorem fdamp (i j k : Fin n) :
    Fine2 (fdamp G X i j k) (fun s t => fV G (X.moved p c q s) i j k t) := by
  have hrr : Fine2 (Tape.sel (fun _ => tripleOk X i j k) (Tape.r1 G X i j k) (Tape.const 1))
      (fun s t => rrV G (X.moved p c q s) i j k t) := Fine2.sel_const (h.posOk2.r1 i j k) Fine2.const
  have ht := (Fine2.const (c := 1)).mul (Fine2.sdiv (env := G.env) (Fine2.const (c := r0V G X i j k)) hrr
    (rrV_pos i j k 0).ne')
  have h0 : 0 < 1 * (r0V G X i j k / rrV G (X.moved p c q 0) i j k 0) := by
    rw [h.zero]
    exact tV_pos h.base.radii i j k 0
  have hp := ht.pow (p := G.alp / 3) h0
  exact Fine2.sel_const ((Fine2.const (c := 1)).div
    ((Fine2.const (c := 1)).add ((Fine2.const (c := 6)).mul hp)) (fden_pos h0).ne')
    (Fine2.const (c := 0))

theorem c9 {i j k : Fin n} (ht : tripleOk X i j k) :
    Fine2 (c9 G X (rc G) i j k) (fun s t => c9V G (X.moved p c q s) i j k t) := by
  have hp := ((h.C0 i j).mul (h.C0 i k)).mul (h.C0 j k)
  have hne : |CV0 G (X.moved p c q 0) i j 0 * CV0 G (X.moved p c q 0) i k 0 *
      CV0 G (X.moved p c q 0) j k 0| ≠ G.env.eps := by
    rw [h.zero]
    exact h.base.generic.c9 i j k ht.1 ht.2.1 ht.2.2.1 ht.2.2.2.1 ht.2.2.2.2.1 ht.2.2.2.2.2
  rcases lt_or_gt_of_ne hne with hl | hl
  · exact Fine2.ssqrt_lt (F := fun s t => |CV0 G (X.moved p c q s) i j t *
      CV0 G (X.moved p c q s) i k t * CV0 G (X.moved p c q s) j k t|) hp.tame.abs
      (hp.1.mono fun y hy => eval_abs hy)
      (hp.eventually (P := fun z => |z| < G.env.eps)
        (continuous_abs.continuousAt.eventually_lt continuousAt_const hl))
  · refine Fine2.ssqrt (hp.abs ?_) hl
    intro h0
    rw [h0, abs_zero] at hl
    exact lt_asymm hl G.env.eps_pos

theorem threeBody (hcut : 0 ≤ G.cut3) (i : Fin n) :
    Fine2 (threeBody G X (rc G) i) (fun s t => e3V G (X.moved p c q s) i t) := by
  refine (Fine2.sum fun j => Fine2.sum fun k => ?_).div Fine2.const (by norm_num)
  have hA := h.posOk2.ang hcut h.cut3 i j k
  have hF := h.fdamp i j k
  have h1 := (hA.mul hF).mul (Fine2.const (c := G.s9))
  by_cases ht : tripleOk X i j k
  · exact h1.mul (h.c9 ht)
  · have hz : ∀ s t, angV G (X.moved p c q s) i j k t = 0 := fun s t => by
      rw [angV, if_neg fun hh => ht hh.1.1.1]
    have hp := ((h.C0 i j).mul (h.C0 i k)).mul (h.C0 j k)
    have h2 := h1.congr' (F' := fun _ _ => 0) fun s t => by simp [hz]
    refine (h2.mul_null (Tame2.c9 h.finOk2 i j k) ?_).congr' fun s t => by simp [hz]
    filter_upwards [hp.1] with y hy
    exact ⟨_, eval_ssqrt (eval_abs hy)⟩

end GenOk2

/-- Away from the surfaces of `Generic` the second backward pass yields the mixed derivative of the
energy. -/
theorem Fine2.energy (h : GenOk2 G X p c q) (hcut : 0 ≤ G.cut3) (i : Fin n) :
    Fine2 (energy G X (rc G) i) (fun s t => Spec.energy G.S ((X.moved p c q s).mol t) i) :=
  ((Fine2.const.add (h.twoBody i)).add (h.threeBody hcut i)).congr' fun s t =>
    energyV_eq (X := X.moved p c q s) hcut i t

end Tape

end TadDftd4
