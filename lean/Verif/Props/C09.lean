import Verif.Props.C07

/-!
# C09: the two-body cutoff is sharp and inclusive
-/

open scoped Classical

namespace TadDftd4

open Tensor

/-- Euclidean distance of two atoms of entry `b` (with `c` coordinates each). -/
noncomputable def pairDist (positions : Tensor ℝ) (c : ℕ) (b : Idx) (i j : ℕ) : ℝ :=
  √(∑ k ∈ Finset.range c, (positions.get (k :: i :: b) - positions.get (k :: j :: b)) ^ 2)

section
variable {env : Env} {numbers : Tensor ℕ} {positions c6 r4r2 rvdw : Tensor ℝ} {n c : ℕ} {B : Shape}
  {p : Param} {d : Damping}

theorem distAt_eq_max (b : Idx) (i j : ℕ) :
    distAt env positions c b i j = max (pairDist positions c b i j) (√env.eps) := by
  unfold distAt Env.ssqrt pairDist sqDist
  rcases le_total (∑ k ∈ Finset.range c, (positions.get (k :: i :: b) -
    positions.get (k :: j :: b)) ^ 2) env.eps with h | h
  · rw [max_eq_right h, max_eq_right (Real.sqrt_le_sqrt h)]
  · rw [max_eq_left h, max_eq_left (Real.sqrt_le_sqrt h)]

/-- Beyond the cutoff a pair contributes exactly nothing. -/
theorem C09_beyond (h : D2Shapes numbers positions c6 r4r2 rvdw n c B) (hu : d.Usable env p)
    {cut : ℝ} {b : Idx} (hb : InB B b) {i j : ℕ} (hi : i < n) (hj : j < n)
    (hd : cut < pairDist positions c b i j) :
    (dispersion2 env numbers positions p c6 r4r2 (some rvdw) d (some cut) true).get (j :: i :: b) =
      0 := by
  obtain ⟨f6, f8, f10, s6, s8, s10, h6, h8, hs6, hs8, hs10⟩ := hu.values
  obtain ⟨-, -, gE, -⟩ := dispersion2_eval h hu.extra h6 h8 hs6 hs8 hs10 (some cut)
  rw [gE b i j hb hi hj, pairEnergy, if_neg, neg_zero]
  rintro ⟨-, hle⟩
  rw [distAt_eq_max] at hle
  exact absurd ((le_max_left _ _).trans hle) (not_le.2 hd)

/-- Up to and including the cutoff a pair contributes in full: the same as with any larger cutoff.
(`√eps` is the smallest distance the code distinguishes.) -/
theorem C09_within (h : D2Shapes numbers positions c6 r4r2 rvdw n c B) (hu : d.Usable env p)
    {cut cut' : ℝ} (hcut : cut ≤ cut') (heps : √env.eps ≤ cut) {b : Idx} (hb : InB B b) {i j : ℕ}
    (hi : i < n) (hj : j < n) (hd : pairDist positions c b i j ≤ cut) :
    (dispersion2 env numbers positions p c6 r4r2 (some rvdw) d (some cut) true).get (j :: i :: b) =
    (dispersion2 env numbers positions p c6 r4r2 (some rvdw) d (some cut') true).get (j :: i :: b)
      := by
  obtain ⟨f6, f8, f10, s6, s8, s10, h6, h8, hs6, hs8, hs10⟩ := hu.values
  obtain ⟨-, -, gE, -⟩ := dispersion2_eval h hu.extra h6 h8 hs6 hs8 hs10 (some cut)
  obtain ⟨-, -, gE', -⟩ := dispersion2_eval h hu.extra h6 h8 hs6 hs8 hs10 (some cut')
  rw [gE b i j hb hi hj, gE' b i j hb hi hj]
  congr 1
  have hle : distAt env positions c b i j ≤ cut := by
    rw [distAt_eq_max]; exact max_le hd heps
  unfold pairEnergy
  refine ite_iff ⟨fun h => ⟨h.1, h.2.trans hcut⟩, fun h => ⟨h.1, hle⟩⟩ rfl rfl

/-- The value of the contribution of a real pair within the cutoff, for rational damping. -/
theorem C09_value (h : D2Shapes numbers positions c6 r4r2 rvdw n c B) {P : Spec.D4Par}
    (hp : p.Reads P) {cut : ℝ} (heps : √env.eps ≤ cut) {b : Idx} (hb : InB B b) {i j : ℕ}
    (hi : i < n) (hj : j < n) (hij : i ≠ j) (hZi : numbers.get (i :: b) ≠ 0)
    (hZj : numbers.get (j :: b) ≠ 0) (hlo : √env.eps ≤ pairDist positions c b i j)
    (hd : pairDist positions c b i j ≤ cut) :
    (dispersion2 env numbers positions p c6 r4r2 (some rvdw) .rational (some cut) true).get
        (j :: i :: b) =
      let r := pairDist positions c b i j
      let C6 := c6.get (j :: i :: b)
      let qq := 3 * r4r2.get (i :: b) * r4r2.get (j :: b)
      let R0 := P.a1 * √qq + P.a2;
      -(P.s6 * (C6 / (r ^ 6 + R0 ^ 6)) + P.s8 * (C6 * qq / (r ^ 8 + R0 ^ 8)) +
        P.s10 * (49 / 40 * C6 * qq ^ 2 / (r ^ 10 + R0 ^ 10))) := by
  have hu := usable_rational (env := env) hp
  have hs10 : S10Is env .rational p P.s10 (ratF P.a1 P.a2 10) := by
    rcases hp.s10 with h | ⟨h, h0⟩
    · exact Or.inr ⟨h, hp.point.2.2 h⟩
    · exact Or.inl ⟨h, h0⟩
  obtain ⟨-, -, gE, -⟩ := dispersion2_eval h hu.extra hp.point.1 hp.point.2.1 hp.s6 (Or.inl hp.s8)
    hs10 (some cut)
  have hr : distAt env positions c b i j = pairDist positions c b i j := by
    rw [distAt_eq_max, max_eq_left hlo]
  rw [gE b i j hb hi hj, pairEnergy, if_pos ⟨⟨hZi, hZj, hij⟩, by rw [hr]; exact hd⟩, hr]
  unfold pairE ratF radAt
  simp only [Damping.radiusType]
  ring

/-- Without a cutoff argument, pairs up to and including 60 Bohr contribute as with any larger cutoff, and
pairs beyond contribute nothing. -/
theorem C09_default (h : D2Shapes numbers positions c6 r4r2 rvdw n c B) (hu : d.Usable env p)
    (heps : √env.eps ≤ 60) {b : Idx} (hb : InB B b) {i j : ℕ} (hi : i < n) (hj : j < n) :
    (60 < pairDist positions c b i j →
      (dispersion2 env numbers positions p c6 r4r2 (some rvdw) d none true).get (j :: i :: b) = 0) ∧
    (pairDist positions c b i j ≤ 60 → ∀ cut, 60 ≤ cut →
      (dispersion2 env numbers positions p c6 r4r2 (some rvdw) d none true).get (j :: i :: b) =
        (dispersion2 env numbers positions p c6 r4r2 (some rvdw) d (some cut) true).get (j :: i :: b)) :=
  ⟨C09_beyond (cut := 60) h hu hb hi hj, fun hd _ hc => C09_within (cut := 60) h hu hc heps hb hi hj hd⟩

end

/-- Two atoms exactly 60 Bohr apart. -/
noncomputable def Demo.far : Tensor ℝ := ⟨none, [3, 2], fun
  | [0, 1] => 60
  | _ => 0⟩

def Demo.dimer : Tensor ℕ := ⟨none, [2], fun _ => 1⟩

theorem Demo.far_dist : pairDist Demo.far 3 [] 0 1 = 60 := by
  have h : (∑ k ∈ Finset.range 3, (Demo.far.get [k, 0] - Demo.far.get [k, 1]) ^ 2) = 60 ^ 2 := by
    simp [Finset.sum_range_succ, Demo.far]
  unfold pairDist
  rw [h]
  exact Real.sqrt_sq (by norm_num)

/-- The pair at exactly the (default) cutoff contributes in full. -/
example : (dispersion2 Demo.env Demo.dimer Demo.far Demo.param (full [2, 2] 5) (full [2] 2)
    (some (full [2, 2] 6)) .rational (some 60) true).get [1, 0] =
    (dispersion2 Demo.env Demo.dimer Demo.far Demo.param (full [2, 2] 5) (full [2] 2)
    (some (full [2, 2] 6)) .rational (some 100) true).get [1, 0] := by
  refine C09_within (n := 2) (c := 3) (B := []) ⟨⟨rfl, rfl⟩, ⟨rfl, rfl⟩, ⟨rfl, rfl⟩, ⟨rfl, rfl⟩,
    ⟨rfl, rfl⟩⟩ (usable_rational Demo.reads) (by norm_num) ?_ InB_nil (by norm_num) (by norm_num)
    (by rw [Demo.far_dist])
  rw [Real.sqrt_le_left (by norm_num)]
  show (1 : ℝ) / 2 ^ 52 ≤ 60 ^ 2
  norm_num

example : (dispersion2 Demo.env Demo.dimer Demo.far Demo.param (full [2, 2] 5) (full [2] 2)
    (some (full [2, 2] 6)) .rational (some 59.9) true).get [1, 0] = 0 :=
  C09_beyond (n := 2) (c := 3) (B := []) ⟨⟨rfl, rfl⟩, ⟨rfl, rfl⟩, ⟨rfl, rfl⟩, ⟨rfl, rfl⟩,
    ⟨rfl, rfl⟩⟩ (usable_rational Demo.reads) InB_nil (by norm_num) (by norm_num)
    (by rw [Demo.far_dist]; norm_num)

example := C09_value (env := Demo.env) (numbers := Demo.dimer) (positions := Demo.far)
  (c6 := full [2, 2] 5) (r4r2 := full [2] 2) (rvdw := full [2, 2] 6) (n := 2) (c := 3) (B := [])
  (cut := 60) (i := 0) (j := 1) ⟨⟨rfl, rfl⟩, ⟨rfl, rfl⟩, ⟨rfl, rfl⟩, ⟨rfl, rfl⟩, ⟨rfl, rfl⟩⟩
  Demo.reads (by rw [Real.sqrt_le_left (by norm_num)]; show (1 : ℝ) / 2 ^ 52 ≤ 60 ^ 2; norm_num)
  InB_nil (by norm_num) (by norm_num) (by norm_num) (by simp [Demo.dimer]) (by simp [Demo.dimer])
  (by rw [Demo.far_dist, Real.sqrt_le_left (by norm_num)]; show (1 : ℝ) / 2 ^ 52 ≤ 60 ^ 2; norm_num)
  (by rw [Demo.far_dist])

example := C09_default (env := Demo.env) (numbers := Demo.dimer) (positions := Demo.far)
  (c6 := full [2, 2] 5) (r4r2 := full [2] 2) (rvdw := full [2, 2] 6) (n := 2) (c := 3) (B := [])
  (i := 0) (j := 1) ⟨⟨rfl, rfl⟩, ⟨rfl, rfl⟩, ⟨rfl, rfl⟩, ⟨rfl, rfl⟩, ⟨rfl, rfl⟩⟩
  (usable_rational Demo.reads)
  (by rw [Real.sqrt_le_left (by norm_num)]; show (1 : ℝ) / 2 ^ 52 ≤ 60 ^ 2; norm_num)
  InB_nil (by norm_num) (by norm_num)

end TadDftd4
