import Verif.Lemmas.RoundedRef
import Verif.Lemmas.RoundedStages
import Verif.Lemmas.Alpha
import Verif.Model.RoundedAlpha

/-!
# Rounding errors of reference polarizabilities and reference C6 coefficients
-/

set_option linter.unusedSimpArgs false

open scoped Classical

namespace TadDftd4.Rounded

open Ex

/-- Charge scaling of the secondary system of reference `r`. -/
noncomputable def AlphaInput.scaling (X : AlphaInput) (r : ℕ) : ℝ :=
  let s := X.T.refsys X.Z r
  if 0 < s then Real.exp (X.ga * (1 - Real.exp (X.T.gam s * X.gc *
    (1 - X.T.zeff s / (X.refsq X.Z r + X.T.zeff s - X.ε))))) else 0

/-- Polarizability that is subtracted from that of reference `r`. -/
noncomputable def AlphaInput.second (X : AlphaInput) (r w : ℕ) : ℝ :=
  let s := X.T.refsys X.Z r
  X.T.refscount X.Z r * (X.T.secscale s * X.T.secalpha s w * X.scaling r)

/-- Numbers that bound the sensitivity of the reference polarizabilities to rounding: `c` the cancellation
in charges, `H1` and `H2` the sizes of the exponents, `d` the cancellation in the difference of the
polarizabilities of reference and secondary system. -/
structure AlphaInput.Good (X : AlphaInput) (c H1 H2 d : ℕ) : Prop where
  ga : 0 ≤ X.ga
  gc : 0 ≤ X.gc
  ε : 0 ≤ X.ε
  refalpha : ∀ r < nref, ∀ w < nfreq, 0 ≤ X.T.refalpha X.Z r w
  refscount : ∀ r < nref, 0 ≤ X.T.refscount X.Z r
  refascale : ∀ r < nref, 0 ≤ X.T.refascale X.Z r
  secscale : ∀ r < nref, 0 ≤ X.T.secscale (X.T.refsys X.Z r)
  secalpha : ∀ r < nref, ∀ w < nfreq, 0 ≤ X.T.secalpha (X.T.refsys X.Z r) w
  gam : ∀ r < nref, 0 < X.T.refsys X.Z r → 0 ≤ X.T.gam (X.T.refsys X.Z r)
  zeff : ∀ r < nref, 0 < X.T.refsys X.Z r → 0 ≤ X.T.zeff (X.T.refsys X.Z r)
  charge : ∀ r < nref, 0 < X.T.refsys X.Z r →
    0 < X.refsq X.Z r + X.T.zeff (X.T.refsys X.Z r) - X.ε ∧
    |X.refsq X.Z r| + X.T.zeff (X.T.refsys X.Z r) + X.ε ≤
      c * (X.refsq X.Z r + X.T.zeff (X.T.refsys X.Z r) - X.ε)
  inner : ∀ r < nref, 0 < X.T.refsys X.Z r → X.T.gam (X.T.refsys X.Z r) * X.gc *
    (1 + X.T.zeff (X.T.refsys X.Z r) / (X.refsq X.Z r + X.T.zeff (X.T.refsys X.Z r) - X.ε)) ≤ H1
  outer : ∀ r < nref, 0 < X.T.refsys X.Z r → X.ga * (1 + Real.exp (X.T.gam (X.T.refsys X.Z r) * X.gc *
    (1 - X.T.zeff (X.T.refsys X.Z r) / (X.refsq X.Z r + X.T.zeff (X.T.refsys X.Z r) - X.ε)))) ≤ H2
  cancel : ∀ r < nref, ∀ w < nfreq, X.T.refalpha X.Z r w + X.second r w ≤
    d * |X.T.refalpha X.Z r w - X.second r w|

/-- Roundings in a reference polarizability and in a reference C6 coefficient. -/
def kAlpha (c H1 H2 d : ℕ) : ℕ := 4 * (kZeta 1 c H1 H2 + 7) * d + 2
def kRefC6 (c H1 H2 d : ℕ) : ℕ := 2 * kAlpha c H1 H2 d + 28

section
variable {u : ℝ} (hu : 0 ≤ u) (hu1 : u < 1) {X : AlphaInput} {c H1 H2 d : ℕ}
include hu hu1

/-- A difference that is clearly negative is computed as a number that is not positive. -/
theorem Ex.neg_of_err {a : Ex} {k c m : ℕ} {X : ℝ} (ha : Err u a k X) (hc : X ≤ c * -a.val)
    (h0 : a.val ≤ 0) (hk : k * u ≤ 1 / 2) (hm : 4 * k * c ≤ m) (hmu : m * u ≤ 1) {z : ℝ}
    (hz : a.Rounds u z) : z ≤ 0 := by
  have hd := (ha.2 z hz).2
  have hX : 0 ≤ X := (abs_nonneg _).trans ha.1
  have hm' : (4 : ℝ) * k * c ≤ m := by exact_mod_cast hm
  have hb : |z - a.val| ≤ m * u / 2 * -a.val := by
    calc |z - a.val| ≤ (((1 - u) ^ k)⁻¹ - 1) * X := hd
      _ ≤ 2 * k * u * X := mul_le_mul_of_nonneg_right (inv_pow_le' hu hu1 hk) hX
      _ ≤ 2 * k * u * (c * -a.val) := mul_le_mul_of_nonneg_left hc (by positivity)
      _ = (4 * k * c) * (u / 2 * -a.val) := by ring
      _ ≤ m * (u / 2 * -a.val) := mul_le_mul_of_nonneg_right hm' (mul_nonneg (by positivity) (by linarith))
      _ = m * u / 2 * -a.val := by ring
  have := (abs_le.1 hb).2
  nlinarith

omit hu hu1 in
theorem AlphaInput.Good.zetaS_val (h : X.Good c H1 H2 d) {r : ℕ} (hr : r < nref) :
    (X.zetaS r).val = X.scaling r := by
  unfold AlphaInput.zetaS AlphaInput.scaling
  dsimp only
  split_ifs with hs
  · have := (h.charge r hr hs).1
    have hε := h.ε
    simp only [val, signed_val]
    exact if_neg (by linarith)
  · rfl

theorem AlphaInput.Good.rel_zetaS (h : X.Good c H1 H2 d) (hD : (kDen 1 c + 7 : ℕ) * u ≤ 1 / 2)
    (hs : (kScale 1 c H1 + 2 : ℕ) * u ≤ 1 / 2) {r : ℕ} (hr : r < nref) :
    Rel u (X.zetaS r) (kZeta 1 c H1 H2) := by
  have hq : (1 + 3 : ℕ) * u ≤ 1 / 2 := by
    refine le_trans (mul_le_mul_of_nonneg_right ?_ hu) hD
    exact_mod_cast (by omega)
  unfold AlphaInput.zetaS
  dsimp only
  split_ifs with hc
  swap
  · exact rel_mono hu hu1 (rel_const hu hu1 le_rfl) (Nat.zero_le _)
  obtain ⟨hq0, hqc⟩ := h.charge r hr hc
  have hze := h.zeff r hr hc
  have hga := h.gam r hr hc
  have hε := h.ε
  have rzeff := rel_inp (u := u) (k := 1) hze
  have zeff := err_of_rel hu hu1 rzeff
  have qmod := err_add hu hu1 (err_signed hu hu1 (X.refsq X.Z r) 1) zeff (m := 1 + 2) (by omega) (by omega)
  have cε : Err u (const X.ε) 0 X.ε := err_of_rel hu hu1 (rel_const hu hu1 hε)
  have den := err_sub hu hu1 qmod cε (m := 1 + 3) (by omega) (by omega)
  have hDu : (kDen 1 c : ℕ) * u ≤ 1 := by
    push_cast at hD; nlinarith
  have hc0 : (0 : ℝ) ≤ c := Nat.cast_nonneg c
  have vden : (sub (add (signed (X.refsq X.Z r) 1) (inp (X.T.zeff (X.T.refsys X.Z r)) 1)) (const X.ε)).val =
      X.refsq X.Z r + X.T.zeff (X.T.refsys X.Z r) - X.ε := by simp [val]
  have vmod : (add (signed (X.refsq X.Z r) 1) (inp (X.T.zeff (X.T.refsys X.Z r)) 1)).val =
      X.refsq X.Z r + X.T.zeff (X.T.refsys X.Z r) := by simp [val]
  have rden := rel_of_err hu hu1 den (c := c) (m := kDen 1 c) (by rw [vden]; exact hqc)
    (by rw [vden]; exact hq0.le) hq (by unfold kDen; omega) hDu
  have rmod := rel_of_err hu hu1 (err_mono hu hu1 qmod (l := 1 + 3) (by omega) le_rfl) (c := c)
    (m := kDen 1 c) (by
      rw [vmod]
      show |X.refsq X.Z r| + X.T.zeff (X.T.refsys X.Z r) ≤ _
      nlinarith) (by rw [vmod]; linarith) hq (by unfold kDen; omega) hDu
  have one : Err u (const 1) 0 1 := err_of_rel hu hu1 (rel_const hu hu1 zero_le_one)
  have rat := err_div hu hu1 zeff rden (by rw [vden]; exact hq0) (m := kDen 1 c + 3) (by omega)
  have dif := err_sub hu hu1 one rat (m := kDen 1 c + 4) (by omega) (by omega)
  have gam := err_of_rel hu hu1 (rel_mul hu hu1 (rel_inp (u := u) (k := 1) hga)
    (rel_const hu hu1 h.gc) (m := 2) (by omega))
  have arg := err_mul hu hu1 gam dif (m := kDen 1 c + 7) (by omega)
  have scale := rel_exp hu hu1 arg (N := H1) (m := kScale 1 c H1) (by
    rw [vden]; exact h.inner r hr hc) hD (by unfold kScale; omega)
  have dif2 := err_sub hu hu1 one (err_of_rel hu hu1 scale) (m := kScale 1 c H1 + 1) (by omega)
    (by omega)
  have cga : Err u (const X.ga) 0 X.ga := err_of_rel hu hu1 (rel_const hu hu1 h.ga)
  have arg2 := err_mul hu hu1 cga dif2 (m := kScale 1 c H1 + 2) (by omega)
  have out := h.outer r hr hc
  have ex2 := rel_exp hu hu1 arg2 (N := H2) (m := kZeta 1 c H1 H2) (by
    simp only [val, signed_val]; exact out) hs (by unfold kZeta; omega)
  have exg : Rel u (exp (const X.ga)) (kZeta 1 c H1 H2) := by
    refine rel_exp hu hu1 (N := H2) (k := 0) cga ?_ (by norm_num) (by unfold kZeta; omega)
    refine le_trans ?_ out
    exact le_mul_of_one_le_right h.ga (by linarith [Real.exp_pos (X.T.gam (X.T.refsys X.Z r) * X.gc *
      (1 - X.T.zeff (X.T.refsys X.Z r) / (X.refsq X.Z r + X.T.zeff (X.T.refsys X.Z r) - X.ε)))])
  refine rel_sel hu hu1 rmod (rel_const hu hu1 le_rfl) (Or.inr ?_) exg ex2
  rw [vmod]
  exact mul_pos (pow_pos (by linarith) _) (by linarith)

omit hu hu1 in
theorem AlphaInput.Good.alpha_val (h : X.Good c H1 H2 d) {r : ℕ} (hr : r < nref) (w : ℕ) :
    (X.alpha r w).val = max 0 (X.T.refascale X.Z r * (X.T.refalpha X.Z r w - X.second r w)) := by
  unfold AlphaInput.alpha AlphaInput.diff AlphaInput.aiw AlphaInput.second
  simp only [val, h.zetaS_val hr]
  rw [max_comm]

/-- Reference polarizabilities. -/
theorem AlphaInput.Good.rel_alpha (h : X.Good c H1 H2 d) (h1 : 1 ≤ H1) (h2 : 1 ≤ H2) (hd : 1 ≤ d)
    (hK : kAlpha c H1 H2 d * u ≤ 1 / 2) {r w : ℕ} (hr : r < nref) (hw : w < nfreq) :
    Rel u (X.alpha r w) (kAlpha c H1 H2 d) := by
  have mono : ∀ k : ℕ, k ≤ kAlpha c H1 H2 d → k * u ≤ 1 / 2 := fun k hk =>
    (mul_le_mul_of_nonneg_right (by exact_mod_cast hk) hu).trans hK
  have b4 : kDen 1 c + 7 ≤ kScale 1 c H1 := by unfold kScale; nlinarith
  have b5 : kScale 1 c H1 + 2 ≤ kZeta 1 c H1 H2 := by unfold kZeta; nlinarith
  have b6 : kZeta 1 c H1 H2 + 7 ≤ kAlpha c H1 H2 d := by unfold kAlpha; nlinarith
  have z := h.rel_zetaS hu hu1 (mono _ (by omega)) (mono _ (by omega)) hr
  have sec := rel_mul hu hu1 (rel_inp (u := u) (k := 1) (h.secscale r hr))
    (rel_inp (u := u) (k := 1) (h.secalpha r hr w hw)) (m := 3) (by omega)
  have aiw := rel_mul hu hu1 sec z (m := kZeta 1 c H1 H2 + 4) (by omega)
  have cnt := rel_mul hu hu1 (rel_inp (u := u) (k := 1) (h.refscount r hr)) aiw
    (m := kZeta 1 c H1 H2 + 6) (by omega)
  have ra := rel_inp (u := u) (k := 1) (h.refalpha r hr w hw)
  have dif : Err u (X.diff r w) (kZeta 1 c H1 H2 + 7) _ :=
    err_sub hu hu1 (err_of_rel hu hu1 ra) (err_of_rel hu hu1 cnt) (by omega) (by omega)
  have vdif : (X.diff r w).val = X.T.refalpha X.Z r w - X.second r w := by
    unfold AlphaInput.diff AlphaInput.aiw AlphaInput.second
    simp only [val, h.zetaS_val hr]
  have vsec : (mul (inp (X.T.refscount X.Z r) 1) (mul (mul (inp (X.T.secscale (X.T.refsys X.Z r)) 1)
      (inp (X.T.secalpha (X.T.refsys X.Z r) w) 1)) (X.zetaS r))).val = X.second r w := by
    unfold AlphaInput.second
    simp only [val, h.zetaS_val hr]
  have hX := h.cancel r hr w hw
  rw [← vdif] at hX
  have hX' : (inp (X.T.refalpha X.Z r w) 1).val + (mul (inp (X.T.refscount X.Z r) 1)
      (mul (mul (inp (X.T.secscale (X.T.refsys X.Z r)) 1)
      (inp (X.T.secalpha (X.T.refsys X.Z r) w) 1)) (X.zetaS r))).val ≤ d * |(X.diff r w).val| := by
    rw [vsec]; exact hX
  have hk := mono _ b6
  have hm : 4 * (kZeta 1 c H1 H2 + 7) * d ≤ 4 * (kZeta 1 c H1 H2 + 7) * d := le_rfl
  have hmu : (4 * (kZeta 1 c H1 H2 + 7) * d : ℕ) * u ≤ 1 :=
    (mono _ (by unfold kAlpha; omega)).trans (by norm_num)
  unfold AlphaInput.alpha
  by_cases h0 : 0 ≤ (X.diff r w).val
  · rw [abs_of_nonneg h0] at hX'
    have rd := rel_of_err hu hu1 dif hX' h0 hk hm hmu
    exact rel_clamp hu hu1 (rel_mul hu hu1 (rel_inp (h.refascale r hr)) rd
      (by unfold kAlpha; omega)) le_rfl
  · have h0' : (X.diff r w).val ≤ 0 := (not_le.1 h0).le
    rw [abs_of_nonpos h0'] at hX'
    have hv : (clampMin (mul (inp (X.T.refascale X.Z r) 1) (X.diff r w)) 0).val = 0 :=
      max_eq_right (mul_nonpos_of_nonneg_of_nonpos (h.refascale r hr) h0')
    refine ⟨hv.ge, fun z hz => ?_⟩
    rw [hv]
    cases hz with
    | @clampMin _ _ x hx =>
      cases hx with
      | @mul _ _ y t _ hy ht hf =>
        have t0 := neg_of_err hu hu1 dif hX' h0' hk hm hmu ht
        have y0 : 0 ≤ y := by
          cases hy with
          | inp hy => exact hy.nonneg hu1 (h.refascale r hr)
        have p : y * t ≤ 0 := mul_nonpos_of_nonneg_of_nonpos y0 t0
        have x0 : x ≤ 0 := by
          have := (abs_le.1 hf).2
          rw [abs_of_nonpos p] at this
          nlinarith
        rw [max_eq_right x0]
        exact near_refl hu hu1 le_rfl _

theorem rel_prod3 (o : Fin 3) {a b c : Ex} {k l m n : ℕ} (ha : Rel u a k) (hb : Rel u b l)
    (hc : Rel u c m) (hn : k + l + m + 2 ≤ n) : Rel u (prod3 o a b c) n := by
  unfold prod3
  split
  · exact rel_mul hu hu1 (rel_mul hu hu1 ha hb (Nat.lt_succ_self _)) hc (by omega)
  · exact rel_mul hu hu1 (rel_mul hu hu1 ha hc (Nat.lt_succ_self _)) hb (by omega)
  · exact rel_mul hu hu1 ha (rel_mul hu hu1 hb hc (Nat.lt_succ_self _)) (by omega)

omit hu hu1 in
theorem prod3_val (o : Fin 3) (a b c : Ex) : (prod3 o a b c).val = a.val * (b.val * c.val) := by
  unfold prod3
  split <;> simp only [val] <;> ring

/-- Reference C6 coefficients. -/
theorem rel_refC6 {Y : AlphaInput} (hX : X.Good c H1 H2 d) (hY : Y.Good c H1 H2 d) (h1 : 1 ≤ H1)
    (h2 : 1 ≤ H2) (hd : 1 ≤ d) (hK : kAlpha c H1 H2 d * u ≤ 1 / 2) (ht : 0 ≤ thopi)
    (hw : ∀ w, 0 ≤ trapzWeights.getD w 0) (o : Fin 3) {a b : ℕ} (ha : a < nref) (hb : b < nref) :
    Rel u (refC6 o X Y a b) (kRefC6 c H1 H2 d) := by
  unfold refC6
  refine rel_mul hu hu1 (rel_inp ht) (l := 2 * kAlpha c H1 H2 d + 25) ?_ (by unfold kRefC6; omega)
  refine rel_sum hu hu1 (k := 2 * kAlpha c H1 H2 d + 3) (fun w => ?_) (by simp [nfreq])
  exact rel_prod3 hu hu1 o (rel_inp (hw _)) (hX.rel_alpha hu hu1 h1 h2 hd hK ha w.2)
    (hY.rel_alpha hu hu1 h1 h2 hd hK hb w.2) (by omega)

end

theorem refC6_val {X Y : AlphaInput} {c H1 H2 d : ℕ} (hX : X.Good c H1 H2 d) (hY : Y.Good c H1 H2 d)
    (o : Fin 3) {a b : ℕ} (ha : a < nref) (hb : b < nref) : (refC6 o X Y a b).val =
    thopi * ∑ w ∈ Finset.range nfreq, trapzWeights.getD w 0 *
      (max 0 (X.T.refascale X.Z a * (X.T.refalpha X.Z a w - X.second a w)) *
       max 0 (Y.T.refascale Y.Z b * (Y.T.refalpha Y.Z b w - Y.second b w))) := by
  unfold refC6
  simp only [val]
  rw [← Fin.sum_univ_eq_sum_range]
  congr 1
  refine Finset.sum_congr rfl fun w _ => ?_
  rw [prod3_val, hX.alpha_val ha, hY.alpha_val hb]
  rfl

/-- C6 coefficients from computed reference C6 coefficients. -/
theorem c6From_relaxes_ref {u : ℝ} {rc rc' : ℕ → ℕ → ℝ} {kr : ℕ} (X Y : RefInput) {g h : ℕ → Ex}
    (hr : ∀ a < nref, ∀ b < nref, Near u kr (rc a b) (rc' a b)) :
    Relaxes u (c6From rc' 0 X Y g h) (c6From rc kr X Y g h) := by
  have R : ∀ e, Relaxes u e e := Relaxes.refl
  exact .sum fun b => .mul (.sum fun a => .mul (.inp (hr a a.2 b b.2)) (R _)) (R _)

theorem AlphaInput.Good.refC6_proper {X Y : AlphaInput} {c H1 H2 d : ℕ} (hX : X.Good c H1 H2 d)
    (hY : Y.Good c H1 H2 d) (ht : 0 ≤ thopi) (hw : ∀ w, 0 ≤ trapzWeights.getD w 0) (o : Fin 3) {a b : ℕ}
    (ha : a < nref) (hb : b < nref) : (refC6 o X Y a b).Proper := by
  have al : ∀ {X : AlphaInput}, X.Good c H1 H2 d → ∀ {r w : ℕ}, r < nref → w < nfreq →
      (X.alpha r w).Proper := by
    intro X h r w hr hw
    refine ⟨h.refascale r hr, h.refalpha r hr w hw, h.refscount r hr, ⟨h.secscale r hr,
      h.secalpha r hr w hw⟩, ?_⟩
    unfold AlphaInput.zetaS
    dsimp only
    split_ifs with hs
    · have hz := h.zeff r hr hs
      have hg := h.gam r hr hs
      exact ⟨⟨signed_proper _ _, hz⟩, trivial, trivial, trivial, trivial, ⟨hg, trivial⟩, trivial, hz,
        ⟨signed_proper _ _, hz⟩, trivial⟩
    · trivial
  refine ⟨ht, by norm_num [nfreq], fun w => ?_⟩
  have A := al hX ha w.2
  have B := al hY hb w.2
  have W := hw w.1
  unfold prod3
  split
  · exact ⟨⟨W, A⟩, B⟩
  · exact ⟨⟨W, B⟩, A⟩
  · exact ⟨W, A, B⟩

end TadDftd4.Rounded
