import Verif.Lemmas.Rounded
import Mathlib.Analysis.SpecialFunctions.Exp

/-!
# Rounding errors of reference weights and C6 coefficients
-/

set_option linter.unusedSimpArgs false

open scoped Classical

namespace TadDftd4.Rounded

open Ex

theorem inv_pow_le' {u : ℝ} {K : ℕ} (hu : 0 ≤ u) (hu1 : u < 1) (hK : K * u ≤ 1 / 2) :
    ((1 - u) ^ K)⁻¹ - 1 ≤ 2 * K * u := by
  have b : 1 - K * u ≤ (1 - u) ^ K := by
    have := one_add_mul_le_pow (a := -u) (by linarith) K
    rw [← sub_eq_add_neg] at this
    linarith
  have hKu : 0 ≤ K * u := by positivity
  have p : 0 < (1 - u) ^ K := pow_pos (by linarith) K
  rw [sub_le_iff_le_add, inv_le_iff_one_le_mul₀ p]
  nlinarith

section
variable {u : ℝ} (hu : 0 ≤ u) (hu1 : u < 1)
include hu hu1

/-- `m` roundings change a number by at least a factor `1 - m u / 2`. -/
theorem pow_le_half {m : ℕ} (hm : m * u ≤ 1) : (1 - u) ^ m ≤ 1 - m * u / 2 := by
  have b : 1 + m * u ≤ (1 + u) ^ m := one_add_mul_le_pow (by linarith) _
  have c : (1 - u) ^ m * (1 + u) ^ m ≤ 1 := by
    rw [← mul_pow]
    exact pow_le_one₀ (by nlinarith) (by nlinarith)
  have p : 0 ≤ (1 - u) ^ m := pow_nonneg (by linarith) _
  have hmu : 0 ≤ m * u := by positivity
  have d : (1 - u) ^ m * (1 + m * u) ≤ 1 := by nlinarith
  nlinarith

/-- Exponentials: an absolute error of the argument is a relative error of the result. -/
theorem Ex.rel_exp {a : Ex} {k N m : ℕ} {X : ℝ} (ha : Err u a k X) (hN : X ≤ N) (hk : k * u ≤ 1 / 2)
    (hm : 2 * k * N < m) : Rel u (Ex.exp a) m := by
  have h0 := (Real.exp_pos a.val).le
  refine ⟨h0, fun z h => ?_⟩
  cases h with
  | @exp _ x _ hx hz =>
    have hd := (ha.2 x hx).2
    have hX : 0 ≤ X := (abs_nonneg _).trans ha.1
    have hb : |x - a.val| ≤ u * (2 * k * N : ℕ) := by
      push_cast
      calc |x - a.val| ≤ (((1 - u) ^ k)⁻¹ - 1) * X := hd
        _ ≤ 2 * k * u * X := mul_le_mul_of_nonneg_right (inv_pow_le' hu hu1 hk) hX
        _ ≤ 2 * k * u * N := mul_le_mul_of_nonneg_left hN (by positivity)
        _ = u * (2 * k * N) := by ring
    have hw : 0 < 1 - u := by linarith
    have hexp : ∀ {t : ℝ}, |t| ≤ u * (2 * k * N : ℕ) → (1 - u) ^ (2 * k * N) ≤ Real.exp t := by
      intro t ht
      have h1 : 1 - u ≤ Real.exp (-u) := by linarith [Real.add_one_le_exp (-u)]
      calc (1 - u) ^ (2 * k * N) ≤ Real.exp (-u) ^ (2 * k * N) := pow_le_pow_left₀ hw.le h1 _
        _ = Real.exp (-(u * (2 * k * N : ℕ))) := by rw [← Real.exp_nat_mul]; ring_nf
        _ ≤ Real.exp t := Real.exp_le_exp.2 (by linarith [(abs_le.1 ht).1])
    have n1 : Near u (2 * k * N) (Real.exp a.val) (Real.exp x) := by
      constructor
      · calc (1 - u) ^ (2 * k * N) * Real.exp a.val ≤ Real.exp (x - a.val) * Real.exp a.val :=
              mul_le_mul_of_nonneg_right (hexp hb) h0
          _ = Real.exp x := by rw [← Real.exp_add]; ring_nf
      · calc (1 - u) ^ (2 * k * N) * Real.exp x ≤ Real.exp (a.val - x) * Real.exp x :=
              mul_le_mul_of_nonneg_right (hexp (by rw [abs_sub_comm]; exact hb)) (Real.exp_pos x).le
          _ = Real.exp a.val := by rw [← Real.exp_add]; ring_nf
    exact (n1.trans hu1 (hz.near hu hu1 (Real.exp_pos x).le)).mono hu hu1 h0 (by omega)

/-- An absolute error with a majorant that is not large compared with the number is a relative error. -/
theorem Ex.rel_of_err {a : Ex} {k c m : ℕ} {X : ℝ} (ha : Err u a k X) (hc : X ≤ c * a.val)
    (h0 : 0 ≤ a.val) (hk : k * u ≤ 1 / 2) (hm : 4 * k * c ≤ m) (hmu : m * u ≤ 1) : Rel u a m := by
  refine ⟨h0, fun z hz => ?_⟩
  have hd := (ha.2 z hz).2
  have hX : 0 ≤ X := (abs_nonneg _).trans ha.1
  have hm' : (4 : ℝ) * k * c ≤ m := by exact_mod_cast hm
  have hb : |z - a.val| ≤ m * u / 2 * a.val := by
    calc |z - a.val| ≤ (((1 - u) ^ k)⁻¹ - 1) * X := hd
      _ ≤ 2 * k * u * X := mul_le_mul_of_nonneg_right (inv_pow_le' hu hu1 hk) hX
      _ ≤ 2 * k * u * (c * a.val) := mul_le_mul_of_nonneg_left hc (by positivity)
      _ = (4 * k * c) * (u / 2 * a.val) := by ring
      _ ≤ m * (u / 2 * a.val) := mul_le_mul_of_nonneg_right hm' (by positivity)
      _ = m * u / 2 * a.val := by ring
  have hp := pow_le_half hu hu1 hmu
  have hp0 : 0 ≤ (1 - u) ^ m := pow_nonneg (by linarith) _
  obtain ⟨b1, b2⟩ := abs_le.1 hb
  have hmu0 : 0 ≤ m * u := by positivity
  constructor
  · have := mul_le_mul_of_nonneg_right hp h0
    linarith
  · have hz0 : z ≤ (1 + m * u / 2) * a.val := by linarith
    calc (1 - u) ^ m * z ≤ (1 - u) ^ m * ((1 + m * u / 2) * a.val) := mul_le_mul_of_nonneg_left hz0 hp0
      _ ≤ (1 - m * u / 2) * ((1 + m * u / 2) * a.val) :=
          mul_le_mul_of_nonneg_right hp (by positivity)
      _ = (1 - (m * u / 2) ^ 2) * a.val := by ring
      _ ≤ a.val := by nlinarith [sq_nonneg (m * u / 2)]

theorem Ex.err_signed (x : ℝ) (k : ℕ) : Err u (signed x k) k |x| := by
  unfold signed
  split_ifs with h
  · have := err_of_rel hu hu1 (rel_inp (u := u) (k := k) h)
    rwa [show (inp x k).val = |x| from (abs_of_nonneg h).symm] at this
  · have h' : 0 ≤ -x := by linarith [not_le.1 h]
    have := err_neg (err_of_rel hu hu1 (rel_inp (u := u) (k := k) h'))
    rwa [show (inp (-x) k).val = |x| from (abs_of_neg (not_le.1 h)).symm] at this

omit hu hu1 in
@[simp] theorem Ex.signed_val (x : ℝ) (k : ℕ) : (signed x k).val = x := by
  unfold signed
  split_ifs <;> simp [val]

end

/-- Assumptions on the input of `weight_references`: bounds of the arguments of the exponentials by whole
numbers, and a positive effective charge `q + zeff` that is not much smaller than its terms. -/
structure RefInput.Good (u : ℝ) (X : RefInput) (N E W c H1 H2 : ℕ) : Prop where
  w : 0 ≤ X.w
  three : 3 ≤ W
  exponent : 3 * X.w ≤ W * (1 - X.kw * u)
  gauss : ∀ r < nref, 0 < X.T.refc X.Z r →
    (|X.cn| + |X.T.refcn X.Z r|) ^ 2 * (if X.kind = .d4 then 1 else X.w) ≤ N
  total : ∀ r < nref, 0 < X.T.refc X.Z r → 3 * X.w * (|X.cn| + |X.T.refcn X.Z r|) ^ 2 ≤ E
  fmax : 2 ≤ X.fmax
  ga : 0 ≤ X.ga
  gc : 0 ≤ X.gc
  ε : 0 ≤ X.ε
  gam : ∀ r < nref, 0 < X.T.refc X.Z r → 0 ≤ X.T.gam X.Z
  zeff : ∀ r < nref, 0 < X.T.refc X.Z r → 0 ≤ X.T.zeff X.Z
  charge : ∀ r < nref, 0 < X.T.refc X.Z r → 0 < X.q + X.T.zeff X.Z - X.ε ∧
    |X.q| + X.T.zeff X.Z + X.ε ≤ c * (X.q + X.T.zeff X.Z - X.ε)
  inner : ∀ r < nref, 0 < X.T.refc X.Z r → X.T.gam X.Z * X.gc *
    (1 + (|X.refq X.Z r| + X.T.zeff X.Z) / (X.q + X.T.zeff X.Z - X.ε)) ≤ H1
  outer : ∀ r < nref, 0 < X.T.refc X.Z r → X.ga * (1 + Real.exp (X.T.gam X.Z * X.gc *
    (1 - (X.refq X.Z r + X.T.zeff X.Z) / (X.q + X.T.zeff X.Z - X.ε)))) ≤ H2

/-- Numbers of roundings: Gaussians, their sums and quotients; inner and outer exponential of the charge
scaling. -/
def kTmp (kn kw N : ℕ) : ℕ := 2 * (2 * kn + kw + 6) * N + 1
def kExpw (kn kw N E W : ℕ) : ℕ := W * kTmp kn kw N + kw * E + 4
def kQuot (kn kw N E W : ℕ) : ℕ := 2 * kExpw kn kw N E W + 7
def kDen (kq c : ℕ) : ℕ := 4 * (kq + 3) * c
def kScale (kq c H1 : ℕ) : ℕ := 2 * (kDen kq c + 7) * H1 + 1
def kZeta (kq c H1 H2 : ℕ) : ℕ := 2 * (kScale kq c H1 + 2) * H2 + 1

namespace RefInput
variable {u : ℝ} {X : RefInput} {N E W c H1 H2 : ℕ} (hu : 0 ≤ u) (hu1 : u < 1)
  (h : X.Good u N E W c H1 H2)

theorem dcn_val (r : ℕ) : (X.dcn r).val = X.cn - X.T.refcn X.Z r := by
  simp [dcn, val]

theorem tmp_val (r : ℕ) : (X.tmp r).val =
    Real.exp (-((if X.kind = .d4 then 1 else X.w) * (X.cn - X.T.refcn X.Z r) ^ 2)) := by
  unfold tmp
  split
  · next hk => rw [if_pos hk]; simp only [val, dcn_val]; congr 1; ring
  · next hk => rw [if_neg (by simpa using hk)]; simp only [val, dcn_val]; congr 1; ring

theorem pow_val (r i : ℕ) : (X.pow r i).val =
    Real.exp (-(i * X.w * (X.cn - X.T.refcn X.Z r) ^ 2)) := by
  unfold pow
  split
  · next hk =>
    simp only [val, tmp_val, div_one]
    rw [if_pos hk, ← Real.exp_mul]; congr 1; ring
  · next hk =>
    simp only [val, tmp_val]
    rw [if_neg (by simpa using hk), ← Real.exp_nat_mul]; congr 1; ring

include hu hu1 h

theorem rel_tmp (hk : (2 * X.kn + X.kw + 6 : ℕ) * u ≤ 1 / 2) {r : ℕ} (hr : r < nref)
    (hc : 0 < X.T.refc X.Z r) : Rel u (X.tmp r) (kTmp X.kn X.kw N) := by
  have hd : Err u (X.dcn r) (X.kn + 2) (|X.cn| + |X.T.refcn X.Z r|) :=
    err_sub hu hu1 (err_signed hu hu1 _ _) (err_signed hu hu1 _ _) (by omega) (by omega)
  have h2 := err_mul hu hu1 (err_neg hd) hd (m := 2 * X.kn + 5) (by omega)
  have hN := h.gauss r hr hc
  rw [← sq] at h2
  unfold tmp kTmp
  split
  · next hd4 =>
    rw [if_pos hd4, mul_one] at hN
    exact rel_exp hu hu1 (err_mono hu hu1 h2 (l := 2 * X.kn + X.kw + 6) (by omega) le_rfl) hN hk
      (by omega)
  · next hd4 =>
    rw [if_neg (by simpa using hd4)] at hN
    have h3 := err_mul hu hu1 h2 (err_of_rel hu hu1 (rel_inp (u := u) (k := X.kw) h.w))
      (m := 2 * X.kn + X.kw + 6) (by omega)
    exact rel_exp hu hu1 h3 hN hk (by omega)

theorem rel_pow (hk : (2 * X.kn + X.kw + 6 : ℕ) * u ≤ 1 / 2) {r i : ℕ} (hr : r < nref)
    (hc : 0 < X.T.refc X.Z r) (hi : i ≤ 3) :
    Rel u (X.pow r i) (W * kTmp X.kn X.kw N + X.kw * E + 1) := by
  have ht := rel_tmp hu hu1 h hk hr hc
  have hi' : (i : ℝ) ≤ 3 := by exact_mod_cast hi
  have hi0 : (0 : ℝ) ≤ i := Nat.cast_nonneg i
  unfold pow
  split
  · next hd4 =>
    have hkw : X.kw * u ≤ 1 := by
      have : (X.kw : ℝ) * u ≤ (2 * X.kn + X.kw + 6 : ℕ) * u :=
        mul_le_mul_of_nonneg_right (by exact_mod_cast (by omega)) hu
      linarith
    refine rel_rpow hu hu1 (q := W) (L := E) ht (by rw [tmp_val]; exact Real.exp_pos _)
      (by rw [div_one]; exact mul_nonneg hi0 h.w) hkw
      (by rw [div_one]; exact (mul_le_mul_of_nonneg_right hi' h.w).trans h.exponent) ?_ (by omega)
    rw [tmp_val, Real.log_exp, if_pos hd4, one_mul, abs_neg, abs_of_nonneg (sq_nonneg _), div_one]
    have h1 : (X.cn - X.T.refcn X.Z r) ^ 2 ≤ (|X.cn| + |X.T.refcn X.Z r|) ^ 2 := by
      rw [← sq_abs (X.cn - _)]
      exact pow_le_pow_left₀ (abs_nonneg _) (abs_sub _ _) 2
    have hw := h.w
    exact (mul_le_mul (mul_le_mul_of_nonneg_right hi' hw) h1 (sq_nonneg _) (by positivity)).trans
      (h.total r hr hc)
  · refine rel_npow hu hu1 ht ?_
    have := Nat.mul_le_mul_right (kTmp X.kn X.kw N) (hi.trans h.three)
    omega

theorem rel_expw (hk : (2 * X.kn + X.kw + 6 : ℕ) * u ≤ 1 / 2) {r : ℕ} (hr : r < nref) :
    Rel u (X.expw r) (kExpw X.kn X.kw N E W) := by
  unfold expw kExpw
  split_ifs with hc h3 h1
  · have p := fun i hi => rel_pow hu hu1 h hk hr hc (i := i) hi
    exact rel_add hu hu1 (rel_add hu hu1 (rel_add hu hu1 (rel_const hu hu1 le_rfl) (p 1 (by omega))
      (m := W * kTmp X.kn X.kw N + X.kw * E + 2) (by omega) (by omega)) (p 2 (by omega))
      (m := W * kTmp X.kn X.kw N + X.kw * E + 3) (by omega) (by omega)) (p 3 le_rfl) (by omega) (by omega)
  · exact rel_add hu hu1 (rel_const hu hu1 le_rfl) (rel_pow hu hu1 h hk hr hc (by omega)) (by omega)
      (by omega)
  · refine rel_mono hu hu1 (rel_tmp hu hu1 h hk hr hc) ?_
    have := Nat.mul_le_mul_right (kTmp X.kn X.kw N) h.three
    omega
  · exact rel_mono hu hu1 (rel_const hu hu1 le_rfl) (Nat.zero_le _)

omit hu hu1 h in
theorem expw_pos {r : ℕ} (hc : 0 < X.T.refc X.Z r) : 0 < (X.expw r).val := by
  unfold expw
  rw [if_pos hc]
  split_ifs
  · simp only [val, pow_val, zero_add]; positivity
  · simp only [val, pow_val, zero_add]; positivity
  · rw [tmp_val]; positivity

omit hu hu1 h in
theorem expw_nonneg (r : ℕ) : 0 ≤ (X.expw r).val := by
  by_cases hc : 0 < X.T.refc X.Z r
  · exact (expw_pos hc).le
  · unfold expw; rw [if_neg hc]; simp [val]

omit hu hu1 h in
theorem norm_pos {r : ℕ} (hr : r < nref) : 0 < (X.norm r).val := by
  unfold norm
  split_ifs with hc
  · exact lt_of_lt_of_le (expw_pos hc) (Finset.single_le_sum (f := fun s : Fin nref => (X.expw s).val)
      (fun s _ => expw_nonneg s.1) (Finset.mem_univ ⟨r, hr⟩))
  · simp only [val, tiny]; positivity

omit hu hu1 h in
theorem quot_nonneg {r : ℕ} (hr : r < nref) : 0 ≤ (X.quot r).val :=
  div_nonneg (expw_nonneg r) (norm_pos hr).le

omit hu hu1 h in
theorem quot_le {r : ℕ} (hr : r < nref) : (X.quot r).val ≤ 1 := by
  simp only [quot, val]
  refine div_le_one_of_le₀ ?_ (norm_pos hr).le
  by_cases hc : 0 < X.T.refc X.Z r
  · unfold norm; rw [if_pos hc]
    exact Finset.single_le_sum (f := fun s : Fin nref => (X.expw s).val)
      (fun s _ => expw_nonneg s.1) (Finset.mem_univ ⟨r, hr⟩)
  · have : (X.expw r).val = 0 := by unfold expw; rw [if_neg hc]; rfl
    rw [this]; exact (norm_pos hr).le

theorem rel_quot (hk : (2 * X.kn + X.kw + 6 : ℕ) * u ≤ 1 / 2) {r : ℕ} (hr : r < nref) :
    Rel u (X.quot r) (kQuot X.kn X.kw N E W) := by
  have he := rel_expw hu hu1 h hk hr
  have hn : Rel u (X.norm r) (kExpw X.kn X.kw N E W + 6) := by
    unfold norm
    split_ifs with hc
    · exact rel_sum hu hu1 (fun s => rel_expw hu hu1 h hk s.2) (by simp [nref])
    · exact rel_mono hu hu1 (rel_const hu hu1 (by unfold tiny; positivity)) (Nat.zero_le _)
  exact rel_div hu hu1 he hn (norm_pos hr) (by unfold kQuot; omega)

omit h in
theorem rel_gw (hf : 2 ≤ X.fmax) {g : Ex} {G : ℕ} (hg : Rel u g G) (hg1 : g.val ≤ 1)
    (hG : (G + 1 : ℕ) * u ≤ 1 / 2) (r : ℕ) : Rel u (X.gw g r) (G + 1) := by
  have ht : Rel u (mul (const 1) g) (G + 1) := rel_mul hu hu1 (rel_const hu hu1 zero_le_one) hg (by omega)
  unfold gw
  refine rel_sel hu hu1 ht (rel_const hu hu1 (by linarith)) (Or.inl ?_) ht
    (rel_mono hu hu1 (rel_const hu hu1 (by split_ifs <;> norm_num)) (Nat.zero_le _))
  have hv : (mul (const 1) g).val ≤ 1 := by simpa [val] using hg1
  refine hv.trans ?_
  have b : 1 - (G + 1 : ℕ) * u ≤ (1 - u) ^ (G + 1) := by
    have := one_add_mul_le_pow (a := -u) (by linarith) (G + 1)
    rw [← sub_eq_add_neg] at this
    linarith
  simp only [add_zero, val]
  have := mul_le_mul (show (1 : ℝ) / 2 ≤ (1 - u) ^ (G + 1) by linarith) hf (by norm_num)
    (pow_nonneg (by linarith) _)
  linarith

omit hu hu1 h in
theorem gw_val (hf : 2 ≤ X.fmax) {g : Ex} (hg : g.val ≤ 1) (r : ℕ) : (X.gw g r).val = g.val := by
  simp only [gw, val, one_mul]
  exact if_pos (by linarith)

omit h in
theorem rel_zeta {v : ℝ} (h : X.Good v N E W c H1 H2) (hD : (kDen X.kq c + 7 : ℕ) * u ≤ 1 / 2) (hq : (X.kq + 3 : ℕ) * u ≤ 1 / 2)
    (hs : (kScale X.kq c H1 + 2 : ℕ) * u ≤ 1 / 2) {r : ℕ} (hr : r < nref) :
    Rel u (X.zeta r) (kZeta X.kq c H1 H2) := by
  unfold zeta
  dsimp only
  split_ifs with hc
  swap
  · exact rel_mono hu hu1 (rel_const hu hu1 le_rfl) (Nat.zero_le _)
  obtain ⟨hq0, hqc⟩ := h.charge r hr hc
  have hze := h.zeff r hr hc
  have hga := h.gam r hr hc
  have hε := h.ε
  have zeff := err_of_rel hu hu1 (rel_inp (u := u) (k := 1) hze)
  have qmod := err_add hu hu1 (err_signed hu hu1 X.q X.kq) zeff (m := X.kq + 2) (by omega) (by omega)
  have cε : Err u (const X.ε) 0 X.ε := err_of_rel hu hu1 (rel_const hu hu1 hε)
  have den := err_sub hu hu1 qmod cε (m := X.kq + 3) (by omega) (by omega)
  have hDu : (kDen X.kq c : ℕ) * u ≤ 1 := by
    push_cast at hD; nlinarith
  have hc0 : (0 : ℝ) ≤ c := Nat.cast_nonneg c
  have vden : (sub (add (signed X.q X.kq) (inp (X.T.zeff X.Z) 1)) (const X.ε)).val =
      X.q + X.T.zeff X.Z - X.ε := by simp [val]
  have vmod : (add (signed X.q X.kq) (inp (X.T.zeff X.Z) 1)).val = X.q + X.T.zeff X.Z := by
    simp [val]
  have rden := rel_of_err hu hu1 den (c := c) (m := kDen X.kq c) (by rw [vden]; exact hqc)
    (by rw [vden]; exact hq0.le) hq (by unfold kDen; omega) hDu
  have rmod := rel_of_err hu hu1 (err_mono hu hu1 qmod (l := X.kq + 3) (by omega) le_rfl) (c := c)
    (m := kDen X.kq c) (by
      rw [vmod]
      show |X.q| + X.T.zeff X.Z ≤ _
      nlinarith) (by rw [vmod]; linarith) hq (by unfold kDen; omega) hDu
  have qref := err_add hu hu1 (err_signed hu hu1 (X.refq X.Z r) 1) zeff (m := 2) (by omega) (by omega)
  have one : Err u (const 1) 0 1 := err_of_rel hu hu1 (rel_const hu hu1 zero_le_one)
  have rat := err_div hu hu1 qref rden (by rw [vden]; exact hq0) (m := kDen X.kq c + 3) (by omega)
  have dif := err_sub hu hu1 one rat (m := kDen X.kq c + 4) (by omega) (by omega)
  have gam := err_of_rel hu hu1 (rel_mul hu hu1 (rel_inp (u := u) (k := 1) hga)
    (rel_const hu hu1 h.gc) (m := 2) (by omega))
  have arg := err_mul hu hu1 gam dif (m := kDen X.kq c + 7) (by omega)
  have scale := rel_exp hu hu1 arg (N := H1) (m := kScale X.kq c H1) (by
    rw [vden]; exact h.inner r hr hc) hD (by unfold kScale; omega)
  have dif2 := err_sub hu hu1 one (err_of_rel hu hu1 scale) (m := kScale X.kq c H1 + 1) (by omega)
    (by omega)
  have cga : Err u (const X.ga) 0 X.ga := err_of_rel hu hu1 (rel_const hu hu1 h.ga)
  have arg2 := err_mul hu hu1 cga dif2 (m := kScale X.kq c H1 + 2) (by omega)
  have out := h.outer r hr hc
  have ex2 := rel_exp hu hu1 arg2 (N := H2) (m := kZeta X.kq c H1 H2) (by
    simp only [val, signed_val]; exact out) hs (by unfold kZeta; omega)
  have exg : Rel u (exp (const X.ga)) (kZeta X.kq c H1 H2) := by
    refine rel_exp hu hu1 (N := H2) (k := 0) cga ?_ (by norm_num) (by unfold kZeta; omega)
    refine le_trans ?_ out
    exact le_mul_of_one_le_right h.ga (by have := Real.exp_pos (X.T.gam X.Z * X.gc *
      (1 - (X.refq X.Z r + X.T.zeff X.Z) / (X.q + X.T.zeff X.Z - X.ε))); linarith)
  refine rel_sel hu hu1 rmod (rel_const hu hu1 le_rfl) (Or.inr ?_) exg ex2
  rw [vmod]
  exact mul_pos (pow_pos (by linarith) _) (by linarith)

omit hu hu1 in
theorem zeta_val {r : ℕ} (hr : r < nref) (hc : 0 < X.T.refc X.Z r) :
    (X.zeta r).val = Real.exp (X.ga * (1 - Real.exp (X.T.gam X.Z * X.gc *
      (1 - (X.refq X.Z r + X.T.zeff X.Z) / (X.q + X.T.zeff X.Z - X.ε))))) := by
  have := (h.charge r hr hc).1
  have hε := h.ε
  unfold zeta
  rw [if_pos hc]
  simp only [val, signed_val]
  exact if_neg (by linarith)

omit h in
theorem rel_wt {v : ℝ} (h : X.Good v N E W c H1 H2) {g : Ex} {G K : ℕ} (hg : Rel u g G) (hg1 : g.val ≤ 1)
    (hK : kZeta X.kq c H1 H2 + G + 2 ≤ K) (hKu : K * u ≤ 1 / 2)
    (h1 : 1 ≤ H1) (h2 : 1 ≤ H2) (hc1 : 1 ≤ c) {r : ℕ} (hr : r < nref) : Rel u (X.wt g r) K := by
  have mono : ∀ k : ℕ, k ≤ K → k * u ≤ 1 / 2 := fun k hk =>
    (mul_le_mul_of_nonneg_right (by exact_mod_cast hk) hu).trans hKu
  have b4 : kDen X.kq c + 7 ≤ kScale X.kq c H1 := by unfold kScale; nlinarith
  have b5 : kScale X.kq c H1 + 2 ≤ kZeta X.kq c H1 H2 := by unfold kZeta; nlinarith
  have b6 : X.kq + 3 ≤ kDen X.kq c := by unfold kDen; nlinarith
  exact rel_mul hu hu1 (rel_zeta hu hu1 h (mono _ (by omega)) (mono _ (by omega)) (mono _ (by omega)) hr)
    (rel_gw hu hu1 h.fmax hg hg1 (mono _ (by omega)) r) (by omega)

end RefInput

/-- C6 coefficients are accurate to a known number of roundings. -/
theorem rel_c6 {u : ℝ} (hu : 0 ≤ u) (hu1 : u < 1) {rc : ℕ → ℕ → ℝ} (hrc : ∀ a b, 0 ≤ rc a b) {kr K : ℕ}
    {X Y : RefInput} {g h : ℕ → Ex} (hX : ∀ r < nref, Rel u (X.wt (g r) r) K)
    (hY : ∀ r < nref, Rel u (Y.wt (h r) r) K) :
    Rel u (c6From rc kr X Y g h) (kr + 2 * K + 14) := by
  unfold c6From
  refine rel_sum hu hu1 (k := kr + 2 * K + 8) (fun b => ?_) (by simp [nref])
  refine rel_mul hu hu1 (k := kr + K + 7) (l := K) ?_ (hY b.1 b.2) (by omega)
  exact rel_sum hu hu1 (k := kr + K + 1) (fun a => rel_mul hu hu1 (rel_inp (hrc _ _)) (hX a.1 a.2)
    (by omega)) (by simp [nref])

/-- Roundings of higher precision: `f` of them count as one. -/
theorem Near.coarse {u v : ℝ} {f K G : ℕ} {x z : ℝ} (hv : 0 ≤ v) (hu1 : u < 1) (hf : 1 ≤ f)
    (hfv : f * v = u) (hx : 0 ≤ x) (h : Near v K x z) (hK : K ≤ G * f) : Near u G x z := by
  have hvu : v ≤ u := by
    rw [← hfv]; exact le_mul_of_one_le_left hv (by exact_mod_cast hf)
  have hz : 0 ≤ z := h.nonneg (by linarith) hx
  have b : (1 - u) ^ G ≤ (1 - v) ^ K := by
    calc (1 - u) ^ G ≤ ((1 - v) ^ f) ^ G := by
          refine pow_le_pow_left₀ (by linarith) ?_ G
          have := one_add_mul_le_pow (a := -v) (by linarith) f
          rw [← sub_eq_add_neg] at this
          linarith
      _ = (1 - v) ^ (G * f) := by rw [← pow_mul, mul_comm]
      _ ≤ (1 - v) ^ K := pow_le_pow_of_le_one (by linarith) (by linarith) hK
  exact ⟨(mul_le_mul_of_nonneg_right b hx).trans h.1, (mul_le_mul_of_nonneg_right b hz).trans h.2⟩

/-- Roundings of lower precision: one of them is contained in `2 f` of the higher precision. -/
theorem Near.fine {u v : ℝ} {f k : ℕ} {x z : ℝ} (hv : 0 ≤ v) (hfv : f * v = u) (hu : u ≤ 1 / 2)
    (hf : 1 ≤ f) (hx : 0 ≤ x) (h : Near u k x z) : Near v (2 * f * k) x z := by
  have hvu : v ≤ u := by
    rw [← hfv]; exact le_mul_of_one_le_left hv (by exact_mod_cast hf)
  have hz : 0 ≤ z := h.nonneg (by linarith) hx
  have b : (1 - v) ^ (2 * f * k) ≤ (1 - u) ^ k := by
    rw [pow_mul]
    refine pow_le_pow_left₀ (pow_nonneg (by linarith) _) ?_ k
    have := pow_le_half hv (by linarith) (m := 2 * f) (by push_cast; nlinarith)
    push_cast at this
    nlinarith
  exact ⟨(mul_le_mul_of_nonneg_right b hx).trans h.1, (mul_le_mul_of_nonneg_right b hz).trans h.2⟩

theorem signed_proper (x : ℝ) (k : ℕ) : (signed x k).Proper := by
  unfold signed
  split_ifs with h
  · exact h
  · show 0 ≤ -x
    linarith [not_le.1 h]

theorem RefInput.Good.quot_proper {u : ℝ} {X : RefInput} {N E W c H1 H2 : ℕ}
    (h : X.Good u N E W c H1 H2) (r : ℕ) : (X.quot r).Proper := by
  have dcn : ∀ r, (X.dcn r).Proper := fun r => ⟨signed_proper _ _, signed_proper _ _⟩
  have tmp : ∀ r, (X.tmp r).Proper := by
    intro r
    unfold RefInput.tmp
    split
    · exact ⟨dcn r, dcn r⟩
    · exact ⟨⟨dcn r, dcn r⟩, h.w⟩
  have pow : ∀ r i, (X.pow r i).Proper := by
    intro r i
    unfold RefInput.pow
    split
    · exact tmp r
    · exact tmp r
  have expw : ∀ r, (X.expw r).Proper := by
    intro r
    unfold RefInput.expw
    split_ifs
    · exact ⟨⟨⟨trivial, pow r 1⟩, pow r 2⟩, pow r 3⟩
    · exact ⟨trivial, pow r 1⟩
    · exact tmp r
    · trivial
  refine ⟨expw r, ?_⟩
  unfold RefInput.norm
  split_ifs
  · exact ⟨by norm_num [nref], fun s => expw s⟩
  · trivial

theorem RefInput.Good.proper {u : ℝ} {X : RefInput} {N E W c H1 H2 : ℕ}
    (h : X.Good u N E W c H1 H2) {r : ℕ} (hr : r < nref) {g : Ex} (hg : g.Proper) :
    (X.wt g r).Proper := by
  have zeta : (X.zeta r).Proper := by
    unfold RefInput.zeta
    dsimp only
    split_ifs with hc
    · have hz := h.zeff r hr hc
      have hg := h.gam r hr hc
      have qm : (Ex.add (signed X.q X.kq) (Ex.inp (X.T.zeff X.Z) 1)).Proper := ⟨signed_proper _ _, hz⟩
      exact ⟨qm, trivial, trivial, trivial, trivial, ⟨hg, trivial⟩, trivial, ⟨signed_proper _ _, hz⟩, qm,
        trivial⟩
    · trivial
  exact ⟨zeta, ⟨trivial, hg⟩, trivial, ⟨trivial, hg⟩, trivial⟩

theorem c6From_proper {u : ℝ} {rc : ℕ → ℕ → ℝ} (hrc : ∀ a b, 0 ≤ rc a b) {kr N E W c H1 H2 : ℕ}
    {X Y : RefInput} (hX : X.Good u N E W c H1 H2) (hY : Y.Good u N E W c H1 H2) {g h : ℕ → Ex}
    (hg : ∀ r < nref, (g r).Proper) (hh : ∀ r < nref, (h r).Proper) : (c6From rc kr X Y g h).Proper :=
  ⟨by norm_num [nref], fun b => ⟨⟨by norm_num [nref], fun a => ⟨hrc _ _, hX.proper a.2 (hg _ a.2)⟩⟩,
    hY.proper b.2 (hh _ b.2)⟩⟩

theorem cdistEx_proper (ε : ℝ) (x y : Fin 3 → ℝ) : (cdistEx ε x y).Proper :=
  have dot : ∀ v w : Fin 3 → ℝ, (Ex.sum 3 fun k => Ex.mul (Ex.const (v k)) (Ex.const (w k))).Proper :=
    fun v w => ⟨by norm_num, fun k => ⟨trivial, trivial⟩⟩
  ⟨⟨dot x x, dot y y⟩, trivial, dot x y⟩

end TadDftd4.Rounded
