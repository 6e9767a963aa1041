import Verif.Lemmas.IeeeFine

/-!
# Energies in single precision

Ranges of the intermediate results in `torch.float32` for atoms that are at least half a bohr apart.
The three distances of a triple have a common scale `2^e`: by the triangle inequality only one of them can
be much smaller, so the numerator of the angular term does not overflow when the denominator is small.
-/

open scoped Classical

namespace TadDftd4.Rounded

open Fmt

/-- Input for which the energy is finite. -/
structure Input.Modest {n : ℕ} (u : ℝ) (X : Input n) : Prop where
  n : n ≤ 2 ^ 11
  d : ∀ i j, X.Pair i j → Ps (-1) 17 (X.d i j)
  tri : ∀ i j k, X.Triple i j k →
    X.d i j ≤ X.d i k + X.d j k ∧ X.d i k ≤ X.d i j + X.d j k ∧ X.d j k ≤ X.d i j + X.d i k
  c6 : ∀ i j, Nn 23 (X.c6 i j)
  c6n : ∀ i j, Nn 23 (X.c6n i j)
  Q : ∀ i, Nn 5 (X.Q i)
  s6 : Up 10 X.s6
  s8 : Up 10 X.s8
  s10 : ∀ s, X.s10 = some s → Up 10 s
  s9 : Up 1 X.s9
  a1 : Nn 1 X.a1
  a2 : Ps (-4) 5 X.a2
  ε : X.ε ≤ 1
  kd : 1 / 2 ≤ (1 - u) ^ X.kd
  kc : 1 / 2 ≤ (1 - u) ^ X.kc
  kQ : 1 / 2 ≤ (1 - u) ^ X.kQ

/-- Scale of a triangle: at most one of the sides is much shorter than the longest. -/
theorem exists_scale {x y z : ℝ} (hx : Ps (-1) 17 x) (hy : Ps (-1) 17 y) (hz : Ps (-1) 17 z)
    (h1 : x ≤ y + z) (h2 : y ≤ x + z) (h3 : z ≤ x + y) :
    ∃ e p q r : ℤ, -1 ≤ e ∧ e ≤ 17 ∧ -3 ≤ p ∧ -3 ≤ q ∧ -3 ≤ r ∧ p + q + r = 2 * e - 5 ∧
      Ps p e x ∧ Ps q e y ∧ Ps r e z := by
  obtain ⟨D, hD⟩ : ∃ D, D = max x (max y z) := ⟨_, rfl⟩
  have xD : x ≤ D := hD ▸ le_max_left _ _
  have yD : y ≤ D := hD ▸ (le_max_left _ _).trans (le_max_right _ _)
  have zD : z ≤ D := hD ▸ (le_max_right _ _).trans (le_max_right _ _)
  have hD0 : 0 < D := hx.pos.trans_le xD
  have hD17 : D ≤ (2 : ℝ) ^ (17 : ℤ) := hD ▸ max_le hx.2 (max_le hy.2 hz.2)
  obtain ⟨m, hm1, hm2⟩ := exists_mem_Ioc_zpow hD0 (one_lt_two (α := ℝ))
  have e2 : (2 : ℝ) ^ m = 4 * (2 : ℝ) ^ (m - 2) := by rw [zpow_sub₀ two_ne_zero]; norm_num; ring
  have p2 := two_zpow_pos (m - 2)
  have em : (m + 1) - 2 = m - 1 := by ring
  have e1 : (2 : ℝ) ^ (m - 1) = 2 * (2 : ℝ) ^ (m - 2) := by
    rw [← zpow_one_add₀ two_ne_zero]; congr 1; ring
  have lo : (2 : ℝ) ^ (-1 : ℤ) ≤ (2 : ℝ) ^ (m + 1) := hx.1.trans (xD.trans hm2)
  have lo' := (zpow_le_zpow_iff_right₀ (one_lt_two (α := ℝ))).1 lo
  have hi := (zpow_lt_zpow_iff_right₀ (one_lt_two (α := ℝ))).1 (hm1.trans_le hD17)
  have key : ∀ w, D ≤ 2 * w → (2 : ℝ) ^ ((m + 1) - 2) ≤ w := by
    intro w hw; rw [em]; linarith
  refine ⟨m + 1, ?_⟩
  have hc : D = x ∨ D = y ∨ D = z := by
    rcases max_choice x (max y z) with e | e
    · left; rw [hD, e]
    · rcases max_choice y z with e' | e'
      · right; left; rw [hD, e, e']
      · right; right; rw [hD, e, e']
  have two : (D ≤ 2 * y ∧ D ≤ 2 * z) ∨ (D ≤ 2 * x ∧ D ≤ 2 * z) ∨ (D ≤ 2 * x ∧ D ≤ 2 * y) := by
    rcases hc with e | e | e <;> rcases le_total x y with a | a <;> rcases le_total y z with b | b <;>
      rcases le_total x z with c | c <;>
      first
      | exact Or.inl ⟨by linarith, by linarith⟩
      | exact Or.inr (Or.inl ⟨by linarith, by linarith⟩)
      | exact Or.inr (Or.inr ⟨by linarith, by linarith⟩)
  rcases two with ⟨a, b⟩ | ⟨a, b⟩ | ⟨a, b⟩
  · exact ⟨-1, (m + 1) - 2, (m + 1) - 2, by omega, by omega, by omega, by omega, by omega, by ring,
      ⟨hx.1, xD.trans hm2⟩, ⟨key y a, yD.trans hm2⟩, ⟨key z b, zD.trans hm2⟩⟩
  · exact ⟨(m + 1) - 2, -1, (m + 1) - 2, by omega, by omega, by omega, by omega, by omega, by ring,
      ⟨key x a, xD.trans hm2⟩, ⟨hy.1, yD.trans hm2⟩, ⟨key z b, zD.trans hm2⟩⟩
  · exact ⟨(m + 1) - 2, (m + 1) - 2, -1, by omega, by omega, by omega, by omega, by omega, by ring,
      ⟨key x a, xD.trans hm2⟩, ⟨key y b, yD.trans hm2⟩, ⟨hz.1, zD.trans hm2⟩⟩

namespace Input
variable {n : ℕ} {u : ℝ} {X : Input n}

section
variable (hu0 : 0 ≤ u) (hu1 : 2 * u ≤ 1) (h : X.Modest u)
include h

theorem fine_qq (i j : Fin n) : Fine u (X.qq i j) (Nn 14) := by
  have c3 : Fine u (.const 3) (Nn 2) := .const ⟨by norm_num, by norm_num⟩
  exact Fine.mul_nn (Fine.mul_nn c3 (Fine.inp (h.Q i) h.kQ) (by norm_num) (by norm_num))
    (Fine.inp (h.Q j) h.kQ) (by norm_num) (by norm_num)

theorem fine_radius (i j : Fin n) : Fine u (X.radius i j) (Ps (-4) 9) := by
  have c := Fine.clampMin (fine_qq h i j) (c := X.ε) (h.ε.trans (by norm_num))
  have s := Fine.sqrt_nn (M := 7) c (by norm_num) (by norm_num) (by norm_num)
  exact Fine.add_nn_ps (U := 8) (Fine.mul_nn (.const h.a1) s (by norm_num) (by norm_num)) (.const h.a2)
    (by norm_num) (by norm_num) (by norm_num) (by norm_num)

theorem fine_bj (i j : Fin n) :
    Fine u (.add (.mul (.const X.a1) (.sqrt (X.qq i j))) (.const X.a2)) (Ps (-4) 9) := by
  have s := Fine.sqrt_nn (M := 7) (fine_qq h i j) (by norm_num) (by norm_num) (by norm_num)
  exact Fine.add_nn_ps (U := 8) (Fine.mul_nn (.const h.a1) s (by norm_num) (by norm_num)) (.const h.a2)
    (by norm_num) (by norm_num) (by norm_num) (by norm_num)

omit h in
theorem fine_one : Fine u (.const 1) (Ps 0 0) := .const ⟨by norm_num, by norm_num⟩
omit h in
theorem fine_zero {M : ℤ} : Fine u (.const 0) (Nn M) := .const ⟨le_rfl, (two_zpow_pos _).le⟩

include hu0 hu1

/-- The damping function; for atoms far apart the tenth power overflows. -/
theorem fine_rational {i j : Fin n} (hp : X.Pair i j) {k : ℕ} (hk : 1 ≤ k) (hk' : k ≤ 10) :
    Fine u (X.rational k i j) (Nn 41) := by
  have d := Fine.inp_ps (h.d i j hp) h.kd
  have b := Fine.npow_ps hu0 hu1 (k := k) (fine_bj h i j) (by omega) (by omega)
  have key : Lo u (.add (.npow (X.dist i j) k)
      (.npow (.add (.mul (.const X.a1) (.sqrt (X.qq i j))) (.const X.a2)) k)) (-41) := by
    intro r hr
    cases hr with
    | add h1 h2 h3 =>
      obtain ⟨y, rfl, hy⟩ := b _ h2
      cases h1 with
      | npow h4 h5 =>
        obtain ⟨x, rfl, hx⟩ := d _ h4
        have hy' : (2 : ℝ) ^ (-41 : ℤ) ≤ y := (two_zpow_le (by omega)).trans hy.1
        rcases func_lo hu1 h5 (pow_nonneg hx.pos.le k) with rfl | ⟨z, rfl, hz⟩
        · exact Or.inl h3.pinf
        · exact round_lo h3 (by linarith) (by norm_num) (by norm_num)
  exact Fine.div_lo_nn fine_one.nn key (by norm_num) (by norm_num)

theorem fine_damped (i j : Fin n) {k : ℕ} (hk : 1 ≤ k) (hk' : k ≤ 10) :
    Fine u (X.damped k i j) (Nn 41) := by
  unfold damped
  split_ifs with hp
  · exact Fine.sel (fine_rational hu0 hu1 h hp hk hk') fine_zero
  · exact fine_zero

omit hu0 hu1 in
theorem fine_c6 (i j : Fin n) : Fine u (X.coeff6 i j) (Nn 24) := Fine.inp (h.c6 i j) h.kc

omit hu0 hu1 in
theorem fine_c8 (i j : Fin n) : Fine u (X.coeff8 i j) (Nn 38) :=
  Fine.mul_nn (fine_c6 h i j) (fine_qq h i j) (by norm_num) (by norm_num)

omit hu0 in
theorem fine_c10 (i j : Fin n) : Fine u (X.coeff10 i j) (Up 54) := by
  have s := Fine.npow_nn hu1 (k := 2) (fine_qq h i j) (by norm_num) (by norm_num)
  have m1 := Fine.mul_nn (fine_c6 h i j) s (by norm_num) (by norm_num)
  have c49 : Fine u (.const 49) (Nn 6) := .const ⟨by norm_num, by norm_num⟩
  have c40 : Fine u (.const 40) (Ps 5 6) := .const ⟨by norm_num, by norm_num⟩
  exact (Fine.div_lo (Fine.mul_nn m1 c49 (by norm_num) (by norm_num)).up (Lo.of_fine c40) (by norm_num)
    (by norm_num)).mono_up (by norm_num)

omit hu0 hu1 in
/-- A scaled sum of contributions of the partners. -/
theorem fine_order {s : ℝ} (hs : Up 10 s) {f g : Fin n → Ex} (hf : ∀ j, Fine u (f j) (Up 54))
    (hg : ∀ j, Fine u (g j) (Nn 41)) :
    Fine u (.mul (.const s) (.sum n fun j => .mul (f j) (g j))) (Up 116) := by
  have t := Fine.sum (N := 11) (f := fun j => .mul (f j) (g j))
    (fun j => Fine.mul_up (hf j) (hg j).up (by norm_num) (by norm_num)) (by norm_num) (by norm_num)
    (by norm_num) h.n
  exact (Fine.mul_up (.const hs) t (by norm_num) (by norm_num)).mono_up (by norm_num)

theorem fine_two (i : Fin n) : Fine u (X.two i) (Up 118) := by
  have e6 := fine_order h h.s6 (fun j => (fine_c6 h i j).up.mono_up (M' := 54) (by norm_num)) fun j =>
    fine_damped hu0 hu1 h i j (k := 6) (by norm_num) (by norm_num)
  have e8 := fine_order h h.s8 (fun j => (fine_c8 h i j).up.mono_up (M' := 54) (by norm_num)) fun j =>
    fine_damped hu0 hu1 h i j (k := 8) (by norm_num) (by norm_num)
  have a := Fine.add_up (U := 116) e6 e8 (by norm_num) (by norm_num) (by norm_num) (by norm_num)
  have ch : Fine u (.const (-0.5)) (Up 0) := .const (by unfold Up; norm_num [abs_of_pos])
  unfold two
  cases hs : X.s10 with
  | none => exact (Fine.mul_up ch a (by norm_num) (by norm_num)).mono_up (by norm_num)
  | some s =>
    have e10 := fine_order h (h.s10 s hs) (fine_c10 hu1 h i) fun j =>
      fine_damped hu0 hu1 h i j (k := 10) (by norm_num) (by norm_num)
    have a' := Fine.add_up (U := 117) a e10 (by norm_num) (by norm_num) (by norm_num) (by norm_num)
    exact (Fine.mul_up ch a' (by norm_num) (by norm_num)).mono_up (by norm_num)

/-! ## Three-body term -/

omit hu0 hu1 in
theorem fine_c9 (i j k : Fin n) : Fine u (X.c9 i j k) (Nn 36) := by
  have c : ∀ i j, Fine u (.inp (X.c6n i j) X.kc) (Nn 24) := fun i j => Fine.inp (h.c6n i j) h.kc
  have m := Fine.mul_nn (Fine.mul_nn (c i j) (c i k) (by norm_num) (by norm_num)) (c j k) (by norm_num)
    (by norm_num)
  have cl := Fine.clampMin (Fine.abs m.up) (c := X.ε) (h.ε.trans (by norm_num))
  exact Fine.sqrt_nn cl (by norm_num) (by norm_num) (by norm_num)

theorem fine_triple (i j k : Fin n) : Fine u (X.triple i j k) (Up 104) := by
  unfold triple
  split_ifs with ht
  swap
  · exact (fine_zero (M := 104)).up
  obtain ⟨h1, h2, h3, h4, h5, h6⟩ := ht
  obtain ⟨t1, t2, t3⟩ := h.tri i j k ⟨h1, h2, h3, h4, h5, h6⟩
  obtain ⟨e, p, q, r, le, ue, lp, lq, lr, hs, px, py, pz⟩ := exists_scale (h.d i j ⟨h1, h2, h4⟩)
    (h.d i k ⟨h1, h3, h5⟩) (h.d j k ⟨h2, h3, h6⟩) t1 t2 t3
  have x : Fine u (X.d2 i j) (Ps (2 * p - 3) (2 * e + 3)) :=
    (Fine.npow_ps hu0 hu1 (k := 2) (Fine.inp_ps px h.kd) (by push_cast; omega) (by push_cast; omega)).mono
      (by push_cast; omega) (by push_cast; omega)
  have y : Fine u (X.d2 i k) (Ps (2 * q - 3) (2 * e + 3)) :=
    (Fine.npow_ps hu0 hu1 (k := 2) (Fine.inp_ps py h.kd) (by push_cast; omega) (by push_cast; omega)).mono
      (by push_cast; omega) (by push_cast; omega)
  have z : Fine u (X.d2 j k) (Ps (2 * r - 3) (2 * e + 3)) :=
    (Fine.npow_ps hu0 hu1 (k := 2) (Fine.inp_ps pz h.kd) (by push_cast; omega) (by push_cast; omega)).mono
      (by push_cast; omega) (by push_cast; omega)
  have r2 : Fine u (X.r2 i j k) (Ps (4 * e - 19) (6 * e + 9)) :=
    (Fine.mul_ps (Fine.mul_ps x y (by omega) (by omega)) z (by omega) (by omega)).mono (by omega) (by omega)
  have r1 : Fine u (X.r1 i j k) (Ps (2 * e - 10) (3 * e + 5)) :=
    Fine.sqrt_ps r2 (by omega) (by omega) (by omega) (by omega)
  have r3 : Lo u (X.r3 i j k) (6 * e - 29) :=
    (Lo.mul (Lo.of_fine r1) (Lo.of_fine r2) (by omega) (by omega)).mono (by omega)
  have r5 : Lo u (X.r5 i j k) (10 * e - 48) :=
    (Lo.mul (Lo.of_fine r2) r3 (by omega) (by omega)).mono (by omega)
  have x' := x.nn.up
  have y' := y.nn.up
  have z' := z.nn.up
  have a1 := Fine.sub_up (U := 2 * e + 4) (Fine.add_up (U := 2 * e + 3) x' z' le_rfl le_rfl (by omega) (by omega))
    y' (by omega) (by omega) (by omega) (by omega)
  have a2 := Fine.add_up (U := 2 * e + 4) (Fine.sub_up (U := 2 * e + 3) x' z' le_rfl le_rfl (by omega) (by omega))
    y' (by omega) (by omega) (by omega) (by omega)
  have a3 := Fine.add_up (U := 2 * e + 4) (Fine.add_up (U := 2 * e + 3) x'.neg z' le_rfl le_rfl (by omega)
    (by omega)) y' (by omega) (by omega) (by omega) (by omega)
  have angle : Fine u (X.angle i j k) (Up (6 * e + 15)) :=
    (Fine.mul_up (Fine.mul_up a1 a2 (by omega) (by omega)) a3 (by omega) (by omega)).mono_up (by omega)
  have c : Fine u (.const 0.375) (Up (-1)) := .const (by unfold Up; norm_num [abs_of_pos])
  have q1 := Fine.div_lo (Fine.mul_up c angle (by omega) (by omega)) r5 (by omega) (by omega)
  have q2 := Fine.div_lo fine_one.nn.up r3 (by omega) (by omega)
  have s := (Fine.add_up (U := 66) q1 q2 (by omega) (by omega) (by norm_num) (by norm_num)).mono_up (M' := 67)
    (by norm_num)
  have o : Fine u (.const 0) (Up 67) := (fine_zero (M := 67)).up
  have ang : Fine u (X.ang i j k) (Up 67) := Fine.sel (Fine.sel (Fine.sel s o) o) o
  have r0 := Fine.mul_ps (Fine.mul_ps (fine_radius h i j) (fine_radius h i k) (by norm_num) (by norm_num))
    (fine_radius h j k) (by norm_num) (by norm_num)
  have t := Fine.mul_ps fine_one (Fine.div_ps r0 r1 (by omega) (by omega)) (by omega) (by omega)
  have fd : Fine u (X.fdamp i j k) (Nn 0) := Fine.damping hu1 t
  exact (Fine.mul_up (Fine.mul_up (Fine.mul_up ang fd.up (by norm_num) (by norm_num)) (.const h.s9)
    (by norm_num) (by norm_num)) (fine_c9 h i j k).up (by norm_num) (by norm_num)).mono_up (by norm_num)

theorem fine_three (i : Fin n) : Fine u (X.three i) (Up 124) := by
  have t := Fine.sum (N := 22) (f := fun m => X.triple i (finProdFinEquiv.symm m).1 (finProdFinEquiv.symm m).2)
    (fun m => fine_triple hu0 hu1 h i _ _) (by norm_num) (by norm_num) (by norm_num) (by
      calc n * n ≤ 2 ^ 11 * 2 ^ 11 := Nat.mul_le_mul h.n h.n
        _ = 2 ^ 22 := by norm_num)
  have c6 : Fine u (.const 6) (Ps 2 3) := .const ⟨by norm_num, by norm_num⟩
  exact (Fine.div_lo t (Lo.of_fine c6) (by norm_num) (by norm_num)).mono_up (by norm_num)

/-- Every evaluation in single precision is finite. -/
theorem fine_energy (i : Fin n) : Fine u (X.energy i) (Up 125) := by
  have a := Fine.add_up (U := 118) (fine_zero (M := 0)).up (fine_two hu0 hu1 h i) (by norm_num) (by norm_num)
    (by norm_num) (by norm_num)
  exact Fine.add_up (U := 124) a (fine_three hu0 hu1 h i) (by norm_num) (by norm_num) (by norm_num)
    (by norm_num)

end
end Input

end TadDftd4.Rounded
