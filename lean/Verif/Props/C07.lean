import Verif.Lemmas.Setup

/-!
# C07: pair matrix and atom-resolved energies of `dispersion2` agree
-/

open scoped Classical

namespace TadDftd4

open Tensor

/-- The parameters can be used with the damping function: no unknown key, no `None`, and the damping
calls of the orders needed raise nothing. -/
structure Damping.Usable (env : Env) (d : Damping) (p : Param) : Prop where
  extra : p.extra = []
  s6 : p.s6 ≠ .none
  s8 : p.s8 ≠ .none
  s10 : p.s10 ≠ .none
  f6 : ∃ f, d.point env 6 false p.kw = .ok f
  f8 : ∃ f, d.point env 8 false p.kw = .ok f
  f10 : p.s10 ≠ .absent → ∃ f, d.point env 10 false p.kw = .ok f

section
variable {env : Env} {numbers : Tensor ℕ} {positions c6 r4r2 rvdw : Tensor ℝ} {n c : ℕ} {B : Shape}
  {p : Param} {d : Damping}

/-- Values read from the parameters. -/
theorem Damping.Usable.values (h : d.Usable env p) : ∃ f6 f8 f10 s6 s8 s10,
    d.point env 6 false p.kw = .ok f6 ∧ d.point env 8 false p.kw = .ok f8 ∧
    p.s6.Is Defaults.s6 s6 ∧ p.s8.Is Defaults.s8 s8 ∧ S10Is env d p s10 f10 := by
  obtain ⟨f6, h6⟩ := h.f6
  obtain ⟨f8, h8⟩ := h.f8
  have hs : ∀ (v : PVal) (x : ℝ), v ≠ .none → ∃ y, v.Is x y := by
    intro v x hv
    cases v with
    | absent => exact ⟨x, Or.inr ⟨rfl, rfl⟩⟩
    | none => exact absurd rfl hv
    | val y => exact ⟨y, Or.inl rfl⟩
  obtain ⟨s6, hs6⟩ := hs p.s6 Defaults.s6 h.s6
  obtain ⟨s8, hs8⟩ := hs p.s8 Defaults.s8 h.s8
  have := h.s10
  cases h10 : p.s10 with
  | absent => exact ⟨f6, f8, fun _ _ => 0, s6, s8, 0, h6, h8, hs6, hs8, Or.inl ⟨h10, rfl⟩⟩
  | none => exact absurd h10 this
  | val x =>
    obtain ⟨f10, hf⟩ := h.f10 (by rw [h10]; simp)
    exact ⟨f6, f8, f10, s6, s8, x, h6, h8, hs6, hs8, Or.inr ⟨h10, hf⟩⟩

theorem distAt_symm (positions : Tensor ℝ) (b : Idx) (i j : ℕ) :
    distAt env positions c b i j = distAt env positions c b j i := by
  unfold distAt sqDist
  congr 1
  exact Finset.sum_congr rfl fun k _ => by ring

/-- The pair matrix is symmetric, zero on the diagonal and for padding; half of its row sums are the
atom-resolved energies and half of its sum is the total energy. -/
theorem C07_matrix (h : D2Shapes numbers positions c6 r4r2 rvdw n c B) (hu : d.Usable env p)
    (cutoff : Option ℝ)
    (hc6 : ∀ b, InB B b → ∀ i < n, ∀ j < n, c6.get (j :: i :: b) = c6.get (i :: j :: b))
    (hrv : ∀ b, InB B b → ∀ i < n, ∀ j < n, rvdw.get (j :: i :: b) = rvdw.get (i :: j :: b)) :
    let E := dispersion2 env numbers positions p c6 r4r2 (some rvdw) d cutoff true
    let e := dispersion2 env numbers positions p c6 r4r2 (some rvdw) d cutoff false
    E.Ok (n :: n :: B) ∧ e.Ok (n :: B) ∧ ∀ b, InB B b →
      (∀ i < n, ∀ j < n, E.get (j :: i :: b) = E.get (i :: j :: b)) ∧
      (∀ i < n, E.get (i :: i :: b) = 0) ∧
      (∀ i < n, ∀ j < n, numbers.get (i :: b) = 0 →
        E.get (j :: i :: b) = 0 ∧ E.get (i :: j :: b) = 0) ∧
      (∀ i < n, e.get (i :: b) = 1 / 2 * ∑ j ∈ Finset.range n, E.get (j :: i :: b)) ∧
      ∑ i ∈ Finset.range n, e.get (i :: b) =
        1 / 2 * ∑ i ∈ Finset.range n, ∑ j ∈ Finset.range n, E.get (j :: i :: b) := by
  obtain ⟨f6, f8, f10, s6, s8, s10, h6, h8, hs6, hs8, hs10⟩ := hu.values
  obtain ⟨hE, he, gE, ge⟩ := dispersion2_eval h hu.extra h6 h8 hs6 hs8 hs10 cutoff
  refine ⟨hE, he, fun b hb => ?_⟩
  have hrow : ∀ i < n, (dispersion2 env numbers positions p c6 r4r2 (some rvdw) d cutoff false).get
      (i :: b) = 1 / 2 * ∑ j ∈ Finset.range n,
      (dispersion2 env numbers positions p c6 r4r2 (some rvdw) d cutoff true).get (j :: i :: b) := by
    intro i hi
    rw [ge b i hb hi, Finset.sum_congr rfl fun j hj => gE b i j hb hi (Finset.mem_range.1 hj),
      Finset.sum_neg_distrib]
    ring
  refine ⟨fun i hi j hj => ?_, fun i hi => ?_, fun i hi j hj h0 => ⟨?_, ?_⟩, hrow, ?_⟩
  · rw [gE b i j hb hi hj, gE b j i hb hj hi]
    congr 1
    unfold pairEnergy
    refine ite_iff ?_ ?_ rfl
    · unfold inCut pairMask
      rw [distAt_symm]
      constructor <;> rintro ⟨⟨h1, h2, h3⟩, h4⟩ <;> exact ⟨⟨h2, h1, h3.symm⟩, h4⟩
    · have e1 : radAt d r4r2 rvdw b i j = radAt d r4r2 rvdw b j i := by
        unfold radAt
        cases d.radiusType
        · simp only []; ring
        · exact hrv b hb i hi j hj
      have e2 : (3 : ℝ) * r4r2.get (i :: b) * r4r2.get (j :: b) =
          3 * r4r2.get (j :: b) * r4r2.get (i :: b) := by ring
      rw [e1, distAt_symm, hc6 b hb i hi j hj, e2]
  · rw [gE b i i hb hi hi, pairEnergy, if_neg, neg_zero]
    rintro ⟨⟨-, -, h3⟩, -⟩
    exact h3 rfl
  · rw [gE b i j hb hi hj, pairEnergy, if_neg, neg_zero]
    rintro ⟨⟨h3, -, -⟩, -⟩
    exact h3 h0
  · rw [gE b j i hb hj hi, pairEnergy, if_neg, neg_zero]
    rintro ⟨⟨-, h3, -⟩, -⟩
    exact h3 h0
  · rw [Finset.sum_congr rfl fun i hi => hrow i (Finset.mem_range.1 hi), Finset.mul_sum]

/-- The van der Waals radii are irrelevant for damping functions that do not use them (in
particular they may be omitted). -/
theorem C07_rvdw_optional (hd : d.radiusType = .r4r2) (r r' : Option (Tensor ℝ))
    (cutoff : Option ℝ) (m : Bool) :
    dispersion2 env numbers positions p c6 r4r2 r d cutoff m =
      dispersion2 env numbers positions p c6 r4r2 r' d cutoff m := by
  unfold dispersion2 radii2
  simp only [hd]

/-- Damping functions that use van der Waals radii do not work without them: `ValueError`, whatever the
other arguments are, as long as their shapes match. -/
theorem C07_rvdw_required (hd : d.radiusType = .rvdw) (hn : numbers.Ok (n :: B))
    (hp : positions.Ok (c :: n :: B)) (hc : c6.Ok (n :: n :: B)) (hr : r4r2.Ok (n :: B))
    (cutoff : Option ℝ) (m : Bool) :
    (dispersion2 env numbers positions p c6 r4r2 none d cutoff m).err = some .value := by
  have h1 := (pairDistances_ok (env := env) hn hp).err
  have h2 : (c6 * qqT r4r2).err = none := by
    simp [hc.err, hc.shape, (qqT_ok hr).err, (qqT_ok hr).shape]
  have h3 : (radii2 d r4r2 none).err = some .value := by
    unfold radii2
    rw [hd]
    rfl
  unfold dispersion2
  simp only []
  rw [Tensor.after_err, h1, Tensor.after_err, h2, Tensor.after_err, h3]
  rfl

/-- Usable parameters of rational damping. -/
theorem usable_rational {P : Spec.D4Par} (hp : p.Reads P) : Damping.Usable env .rational p where
  extra := hp.extra
  s6 := by rcases hp.s6 with h | ⟨h, -⟩ <;> rw [h] <;> simp
  s8 := by rw [hp.s8]; simp
  s10 := by rcases hp.s10 with h | ⟨h, -⟩ <;> rw [h] <;> simp
  f6 := ⟨_, hp.point.1⟩
  f8 := ⟨_, hp.point.2.1⟩
  f10 h := by
    rcases hp.s10 with h' | ⟨h', -⟩
    · exact ⟨_, hp.point.2.2 h'⟩
    · exact absurd h' h

end

/-- Usable parameters of zero damping (`rs6`, `rs8` given). -/
theorem Demo.usable_zero : Damping.Usable Demo.env .zero
    { s8 := .val 0.7, rs6 := .val 1.2, rs8 := .val 1, alp := .val 14 } := by
  constructor <;> simp [Damping.point, Damping.required, Damping.pointF, Param.kw, PVal.kw]

/-- The demonstration systems with constant coefficients, rational and zero damping. -/
example (d : Damping) (p : Param) (hu : d.Usable Demo.env p) :
    (dispersion2 Demo.env Demo.numbers Demo.positions p (full [3, 3, 2] 5) (full [3, 2] 2)
      (some (full [3, 3, 2] 6)) d none true).get [0, 1, 0] =
    (dispersion2 Demo.env Demo.numbers Demo.positions p (full [3, 3, 2] 5) (full [3, 2] 2)
      (some (full [3, 3, 2] 6)) d none true).get [1, 0, 0] :=
  ((C07_matrix (n := 3) (c := 3) (B := [2]) ⟨⟨rfl, rfl⟩, ⟨rfl, rfl⟩, ⟨rfl, rfl⟩, ⟨rfl, rfl⟩,
    ⟨rfl, rfl⟩⟩ hu none (fun _ _ _ _ _ _ => rfl) (fun _ _ _ _ _ _ => rfl)).2.2 [0]
    (by simp [InB])).1 1 (by norm_num) 0 (by norm_num)

example : dispersion2 Demo.env Demo.numbers Demo.positions Demo.param (full [3, 3, 2] 5)
      (full [3, 2] 2) none =
    dispersion2 Demo.env Demo.numbers Demo.positions Demo.param (full [3, 3, 2] 5)
      (full [3, 2] 2) (some (full [3, 3, 2] 6)) :=
  C07_rvdw_optional rfl _ _ _ _

example : (dispersion2 Demo.env Demo.numbers Demo.positions Demo.param (full [3, 3, 2] 5) (full [3, 2] 2) none
    .zero).err = some .value :=
  C07_rvdw_required (n := 3) (c := 3) (B := [2]) rfl ⟨rfl, rfl⟩ ⟨rfl, rfl⟩ ⟨rfl, rfl⟩ ⟨rfl, rfl⟩ _ _

end TadDftd4
