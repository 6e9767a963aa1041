import Verif.Model.Rounded
import Mathlib.Analysis.SpecialFunctions.Log.Basic

/-!
# Error calculus for rounded expressions

`Rel u e k`: the value of `e` is not negative and every computed value is the exact one after `k`
roundings. `Err u e k X`: `|e| ≤ X`, and a computed value differs by at most `((1 - u)⁻ᵏ - 1) X`.
-/

open scoped Classical

namespace TadDftd4.Rounded

section
variable {u : ℝ}

theorem near_refl (hu : 0 ≤ u) (hu1 : u < 1) {x : ℝ} (hx : 0 ≤ x) (k : ℕ) : Near u k x x := by
  have h1 : (1 - u) ^ k ≤ 1 := pow_le_one₀ (by linarith) (by linarith)
  exact ⟨mul_le_of_le_one_left hx h1, mul_le_of_le_one_left hx h1⟩

theorem Near.nonneg (hu1 : u < 1) {k : ℕ} {x z : ℝ} (h : Near u k x z) (hx : 0 ≤ x) : 0 ≤ z :=
  (mul_nonneg (pow_nonneg (by linarith) k) hx).trans h.1

theorem Near.pos (hu1 : u < 1) {k : ℕ} {x z : ℝ} (h : Near u k x z) (hx : 0 < x) : 0 < z :=
  (mul_pos (pow_pos (by linarith) k) hx).trans_le h.1

theorem Near.mono (hu : 0 ≤ u) (hu1 : u < 1) {k l : ℕ} {x z : ℝ} (h : Near u k x z) (hx : 0 ≤ x)
    (hkl : k ≤ l) : Near u l x z := by
  have hz := h.nonneg hu1 hx
  have hp : (1 - u) ^ l ≤ (1 - u) ^ k := pow_le_pow_of_le_one (by linarith) (by linarith) hkl
  exact ⟨(mul_le_mul_of_nonneg_right hp hx).trans h.1, (mul_le_mul_of_nonneg_right hp hz).trans h.2⟩

theorem Near.trans (hu1 : u < 1) {k l : ℕ} {x y z : ℝ} (h : Near u k x y) (h' : Near u l y z) :
    Near u (k + l) x z := by
  have hk : 0 ≤ (1 - u) ^ k := pow_nonneg (by linarith) k
  have hl : 0 ≤ (1 - u) ^ l := pow_nonneg (by linarith) l
  constructor
  · calc (1 - u) ^ (k + l) * x = (1 - u) ^ l * ((1 - u) ^ k * x) := by rw [pow_add]; ring
      _ ≤ (1 - u) ^ l * y := mul_le_mul_of_nonneg_left h.1 hl
      _ ≤ z := h'.1
  · calc (1 - u) ^ (k + l) * z = (1 - u) ^ k * ((1 - u) ^ l * z) := by rw [pow_add]; ring
      _ ≤ (1 - u) ^ k * y := mul_le_mul_of_nonneg_left h'.2 hk
      _ ≤ x := h.2

theorem Fl.near (hu : 0 ≤ u) (hu1 : u < 1) {x z : ℝ} (h : Fl u x z) (hx : 0 ≤ x) :
    Near u 1 x z := by
  unfold Fl at h
  rw [abs_of_nonneg hx, abs_le] at h
  constructor
  · rw [pow_one]; linarith [h.1]
  · rw [pow_one]
    nlinarith [h.2, mul_nonneg hu hx, mul_nonneg (mul_nonneg hu hu) hx]

theorem Near.mul {k l : ℕ} {x y x' y' : ℝ} (hu1 : u < 1) (h : Near u k x y) (h' : Near u l x' y')
    (hx : 0 ≤ x) (hx' : 0 ≤ x') : Near u (k + l) (x * x') (y * y') := by
  have hk : 0 ≤ (1 - u) ^ k := pow_nonneg (by linarith) k
  have hl : 0 ≤ (1 - u) ^ l := pow_nonneg (by linarith) l
  have hy := h.nonneg hu1 hx
  have hy' := h'.nonneg hu1 hx'
  constructor
  · calc (1 - u) ^ (k + l) * (x * x') = ((1 - u) ^ k * x) * ((1 - u) ^ l * x') := by
          rw [pow_add]; ring
      _ ≤ y * y' := mul_le_mul h.1 h'.1 (mul_nonneg hl hx') hy
  · calc (1 - u) ^ (k + l) * (y * y') = ((1 - u) ^ k * y) * ((1 - u) ^ l * y') := by
          rw [pow_add]; ring
      _ ≤ x * x' := mul_le_mul h.2 h'.2 (mul_nonneg hl hy') hx

theorem Near.inv {k : ℕ} {x y : ℝ} (hu1 : u < 1) (h : Near u k x y) (hx : 0 < x) :
    Near u k x⁻¹ y⁻¹ := by
  have hk : 0 < (1 - u) ^ k := pow_pos (by linarith) k
  have hy := h.pos hu1 hx
  constructor
  · rw [← div_eq_mul_inv, div_le_iff₀ hx, ← div_eq_inv_mul, le_div_iff₀ hy]; exact h.2
  · rw [← div_eq_mul_inv, div_le_iff₀ hy, ← div_eq_inv_mul, le_div_iff₀ hx]; exact h.1

theorem Near.div {k l : ℕ} {x y x' y' : ℝ} (hu1 : u < 1) (h : Near u k x y) (h' : Near u l x' y')
    (hx : 0 ≤ x) (hx' : 0 < x') : Near u (k + l) (x / x') (y / y') := by
  rw [div_eq_mul_inv, div_eq_mul_inv]
  exact h.mul hu1 (h'.inv hu1 hx') hx (inv_nonneg.2 hx'.le)

theorem Near.add {k : ℕ} {x y x' y' : ℝ} (h : Near u k x y) (h' : Near u k x' y') :
    Near u k (x + x') (y + y') := by
  constructor
  · rw [mul_add]; exact add_le_add h.1 h'.1
  · rw [mul_add]; exact add_le_add h.2 h'.2

theorem Near.npow {k : ℕ} {x y : ℝ} (hu1 : u < 1) (h : Near u k x y) (hx : 0 ≤ x) (m : ℕ) :
    Near u (m * k) (x ^ m) (y ^ m) := by
  have hk : 0 ≤ (1 - u) ^ k := pow_nonneg (by linarith) k
  have hy := h.nonneg hu1 hx
  rw [mul_comm m k]
  constructor
  · rw [pow_mul, ← mul_pow]; exact pow_le_pow_left₀ (mul_nonneg hk hx) h.1 m
  · rw [pow_mul, ← mul_pow]; exact pow_le_pow_left₀ (mul_nonneg hk hy) h.2 m

theorem Near.sqrt {k : ℕ} {x y : ℝ} (hu1 : u < 1) (h : Near u (2 * k) x y) : Near u k √x √y := by
  have hk : 0 ≤ (1 - u) ^ k := pow_nonneg (by linarith) k
  have e : (1 - u) ^ (2 * k) = ((1 - u) ^ k) ^ 2 := by rw [mul_comm, pow_mul]
  have s : √((1 - u) ^ (2 * k)) = (1 - u) ^ k := by rw [e, Real.sqrt_sq hk]
  have p : 0 ≤ (1 - u) ^ (2 * k) := by rw [e]; positivity
  constructor
  · rw [← s, ← Real.sqrt_mul p]; exact Real.sqrt_le_sqrt h.1
  · rw [← s, ← Real.sqrt_mul p]; exact Real.sqrt_le_sqrt h.2

theorem Near.max {k : ℕ} {x y c : ℝ} (hu : 0 ≤ u) (hu1 : u < 1) (h : Near u k x y) (hc : 0 ≤ c) :
    Near u k (max x c) (max y c) := by
  have hk : 0 ≤ (1 - u) ^ k := pow_nonneg (by linarith) k
  have hk1 : (1 - u) ^ k ≤ 1 := pow_le_one₀ (by linarith) (by linarith)
  constructor
  · rw [mul_max_of_nonneg _ _ hk]; exact max_le_max h.1 (mul_le_of_le_one_left hc hk1)
  · rw [mul_max_of_nonneg _ _ hk]; exact max_le_max h.2 (mul_le_of_le_one_left hc hk1)

/-- Powers with a rounded exponent. -/
theorem Near.rpow {k l L m : ℕ} {x y p r : ℝ} (hu : 0 ≤ u) (hu1 : u < 1) (h : Near u k x y) (hx : 0 < x)
    (hp : 0 ≤ p) (hr : |r - p| ≤ l * u * |p|) (hl : l * u ≤ 1) (hm : p ≤ m * (1 - l * u))
    (hL : p * |Real.log x| ≤ L) : Near u (m * k + l * L) (x ^ p) (y ^ r) := by
  have hlu : 0 ≤ l * u := by positivity
  have hw : 0 < 1 - u := by linarith
  have hk : 0 < (1 - u) ^ k := pow_pos hw k
  have hy := h.pos hu1 hx
  have hk1 : (1 - u) ^ k ≤ 1 := pow_le_one₀ hw.le (by linarith)
  rw [abs_of_nonneg hp] at hr
  have hr0 : 0 ≤ r := by nlinarith [(abs_le.1 hr).1]
  have hrm : r ≤ m := by
    have h1 : r ≤ p * (1 + l * u) := by nlinarith [(abs_le.1 hr).2]
    have h2 : p * (1 + l * u) ≤ m * (1 - l * u) * (1 + l * u) :=
      mul_le_mul_of_nonneg_right hm (by linarith)
    have h3 : (m : ℝ) * (1 - l * u) * (1 + l * u) ≤ m := by
      have : (0 : ℝ) ≤ m := Nat.cast_nonneg m
      nlinarith [mul_nonneg this (mul_nonneg hlu hlu)]
    linarith
  -- the rounded exponent for the exact base
  have hexp : ∀ {t : ℝ}, |t| ≤ u * (l * L : ℕ) → (1 - u) ^ (l * L) ≤ Real.exp t := by
    intro t ht
    have h1 : 1 - u ≤ Real.exp (-u) := by linarith [Real.add_one_le_exp (-u)]
    calc (1 - u) ^ (l * L) ≤ Real.exp (-u) ^ (l * L) := pow_le_pow_left₀ hw.le h1 _
      _ = Real.exp (-(u * (l * L : ℕ))) := by rw [← Real.exp_nat_mul]; ring_nf
      _ ≤ Real.exp t := Real.exp_le_exp.2 (by linarith [(abs_le.1 ht).1])
  have hd : |Real.log x * (r - p)| ≤ u * (l * L : ℕ) := by
    rw [abs_mul]
    push_cast
    calc |Real.log x| * |r - p| ≤ |Real.log x| * (l * u * p) :=
          mul_le_mul_of_nonneg_left hr (abs_nonneg _)
      _ = l * u * (p * |Real.log x|) := by ring
      _ ≤ l * u * L := mul_le_mul_of_nonneg_left hL hlu
      _ = u * (l * L) := by ring
  have e1 : x ^ r = x ^ p * Real.exp (Real.log x * (r - p)) := by
    rw [Real.rpow_def_of_pos hx, Real.rpow_def_of_pos hx, ← Real.exp_add]; ring_nf
  have e2 : x ^ p = x ^ r * Real.exp (-(Real.log x * (r - p))) := by
    rw [Real.rpow_def_of_pos hx, Real.rpow_def_of_pos hx, ← Real.exp_add]; ring_nf
  have n1 : Near u (l * L) (x ^ p) (x ^ r) := by
    constructor
    · rw [e1, mul_comm]
      exact mul_le_mul_of_nonneg_left (hexp hd) (Real.rpow_nonneg hx.le _)
    · rw [mul_comm, e2, ]
      exact mul_le_mul_of_nonneg_left (hexp (by rw [abs_neg]; exact hd)) (Real.rpow_nonneg hx.le _)
  -- the rounded base
  have hpow : (1 - u) ^ (m * k) ≤ ((1 - u) ^ k) ^ r := by
    rw [mul_comm, pow_mul, ← Real.rpow_natCast ((1 - u) ^ k) m]
    exact Real.rpow_le_rpow_of_exponent_ge hk hk1 hrm
  have n2 : Near u (m * k) (x ^ r) (y ^ r) := by
    constructor
    · calc (1 - u) ^ (m * k) * x ^ r ≤ ((1 - u) ^ k) ^ r * x ^ r :=
            mul_le_mul_of_nonneg_right hpow (Real.rpow_nonneg hx.le _)
        _ = ((1 - u) ^ k * x) ^ r := (Real.mul_rpow hk.le hx.le).symm
        _ ≤ y ^ r := Real.rpow_le_rpow (mul_nonneg hk.le hx.le) h.1 hr0
    · calc (1 - u) ^ (m * k) * y ^ r ≤ ((1 - u) ^ k) ^ r * y ^ r :=
            mul_le_mul_of_nonneg_right hpow (Real.rpow_nonneg hy.le _)
        _ = ((1 - u) ^ k * y) ^ r := (Real.mul_rpow hk.le hy.le).symm
        _ ≤ x ^ r := Real.rpow_le_rpow (mul_nonneg hk.le hy.le) h.2 hr0
  rw [add_comm]
  exact n1.trans hu1 n2

/-! ## Absolute errors with a majorant -/

/-- `|x| ≤ X`, and `z` differs from `x` by at most `((1 - u)⁻ᵏ - 1) X`. -/
def Dev (u : ℝ) (k : ℕ) (X x z : ℝ) : Prop := |x| ≤ X ∧ |z - x| ≤ (((1 - u) ^ k)⁻¹ - 1) * X

theorem one_le_inv (hu : 0 ≤ u) (hu1 : u < 1) (k : ℕ) : 1 ≤ ((1 - u) ^ k)⁻¹ :=
  (one_le_inv₀ (pow_pos (by linarith) k)).2 (pow_le_one₀ (by linarith) (by linarith))

theorem Dev.le {k : ℕ} {X x z : ℝ} (h : Dev u k X x z) : |z| ≤ ((1 - u) ^ k)⁻¹ * X := by
  have := abs_add_le (z - x) x
  rw [sub_add_cancel] at this
  linarith [h.1, h.2]

theorem Dev.mono (hu : 0 ≤ u) (hu1 : u < 1) {k l : ℕ} {X Y x z : ℝ} (h : Dev u k X x z) (hkl : k ≤ l)
    (hXY : X ≤ Y) : Dev u l Y x z := by
  have hX : 0 ≤ X := (abs_nonneg x).trans h.1
  refine ⟨h.1.trans hXY, h.2.trans ?_⟩
  have h1 : ((1 - u) ^ k)⁻¹ ≤ ((1 - u) ^ l)⁻¹ :=
    inv_anti₀ (pow_pos (by linarith) l) (pow_le_pow_of_le_one (by linarith) (by linarith) hkl)
  have h2 := one_le_inv hu hu1 k
  exact mul_le_mul (by linarith) hXY hX (by linarith)

theorem Near.dev (hu : 0 ≤ u) (hu1 : u < 1) {k : ℕ} {x z : ℝ} (h : Near u k x z) (hx : 0 ≤ x) :
    Dev u k x x z := by
  have hk : 0 < (1 - u) ^ k := pow_pos (by linarith) k
  have h1 : z ≤ ((1 - u) ^ k)⁻¹ * x := by
    rw [← div_eq_inv_mul, le_div_iff₀ hk, mul_comm]; exact h.2
  have hk1 : (1 - u) ^ k ≤ 1 := pow_le_one₀ (by linarith) (by linarith)
  have h2 : 2 ≤ (1 - u) ^ k + ((1 - u) ^ k)⁻¹ := by
    have := sq_nonneg ((1 - u) ^ k - 1)
    rw [← sub_nonneg]
    have e : (1 - u) ^ k + ((1 - u) ^ k)⁻¹ - 2 = ((1 - u) ^ k - 1) ^ 2 * ((1 - u) ^ k)⁻¹ := by
      field_simp; ring
    rw [e]; positivity
  refine ⟨(abs_of_nonneg hx).le, abs_le.2 ⟨?_, by linarith⟩⟩
  nlinarith [h.1, mul_le_mul_of_nonneg_right h2 hx]

theorem Dev.round (hu : 0 ≤ u) (hu1 : u < 1) {k : ℕ} {X x y z : ℝ} (h : Dev u k X x y)
    (hz : Fl u y z) : Dev u (k + 1) X x z := by
  have hw : 0 < 1 - u := by linarith
  have hk : 0 < (1 - u) ^ k := pow_pos hw k
  have hX : 0 ≤ X := (abs_nonneg x).trans h.1
  refine ⟨h.1, ?_⟩
  have h1 := abs_add_le (z - y) (y - x)
  rw [sub_add_sub_cancel] at h1
  have h2 : |z - y| ≤ u * (((1 - u) ^ k)⁻¹ * X) := hz.trans (mul_le_mul_of_nonneg_left h.le hu)
  have h3 : ((1 - u) ^ (k + 1))⁻¹ = ((1 - u) ^ k)⁻¹ * (1 - u)⁻¹ := by rw [pow_succ, mul_inv]
  have h4 : 1 + u ≤ (1 - u)⁻¹ := by
    rw [← one_div, le_div_iff₀ hw]; nlinarith
  have h5 : ((1 - u) ^ k)⁻¹ * (1 + u) ≤ ((1 - u) ^ (k + 1))⁻¹ := by
    rw [h3]; exact mul_le_mul_of_nonneg_left h4 (inv_nonneg.2 hk.le)
  have h6 := mul_le_mul_of_nonneg_right h5 hX
  linarith [h.2]

theorem Dev.neg {k : ℕ} {X x z : ℝ} (h : Dev u k X x z) : Dev u k X (-x) (-z) := by
  refine ⟨by rw [abs_neg]; exact h.1, ?_⟩
  have : -z - -x = -(z - x) := by ring
  rw [this, abs_neg]; exact h.2

theorem Dev.add {k : ℕ} {X Y x y z w : ℝ} (h : Dev u k X x z) (h' : Dev u k Y y w) :
    Dev u k (X + Y) (x + y) (z + w) := by
  refine ⟨(abs_add_le _ _).trans (add_le_add h.1 h'.1), ?_⟩
  have e : z + w - (x + y) = (z - x) + (w - y) := by ring
  rw [e, mul_add]
  exact (abs_add_le _ _).trans (add_le_add h.2 h'.2)

theorem Dev.sub {k : ℕ} {X Y x y z w : ℝ} (h : Dev u k X x z) (h' : Dev u k Y y w) :
    Dev u k (X + Y) (x - y) (z - w) := by
  rw [sub_eq_add_neg, sub_eq_add_neg]; exact h.add h'.neg

theorem Dev.mul (hu : 0 ≤ u) (hu1 : u < 1) {k l : ℕ} {X Y x y z w : ℝ} (h : Dev u k X x z)
    (h' : Dev u l Y y w) : Dev u (k + l) (X * Y) (x * y) (z * w) := by
  have hX : 0 ≤ X := (abs_nonneg x).trans h.1
  have hY : 0 ≤ Y := (abs_nonneg y).trans h'.1
  refine ⟨by rw [abs_mul]; exact mul_le_mul h.1 h'.1 (abs_nonneg _) hX, ?_⟩
  have e : z * w - x * y = (z - x) * w + x * (w - y) := by ring
  rw [e]
  have h1 : |(z - x) * w| ≤ ((((1 - u) ^ k)⁻¹ - 1) * X) * (((1 - u) ^ l)⁻¹ * Y) := by
    rw [abs_mul]
    exact mul_le_mul h.2 h'.le (abs_nonneg _)
      (mul_nonneg (by linarith [one_le_inv hu hu1 k]) hX)
  have h2 : |x * (w - y)| ≤ X * ((((1 - u) ^ l)⁻¹ - 1) * Y) := by
    rw [abs_mul]
    exact mul_le_mul h.1 h'.2 (abs_nonneg _) hX
  have h3 := abs_add_le ((z - x) * w) (x * (w - y))
  rw [pow_add, mul_inv]
  nlinarith

end

/-! ## Sums -/

section
variable {u : ℝ} {n : ℕ}

theorem SumOf.pos {v : Fin n → ℝ} {m : Multiset (Fin n)} {z : ℝ} (h : SumOf u v m z) :
    1 ≤ m.card := by
  induction h with
  | one i => simp
  | add _ _ _ h1 h2 => rw [Multiset.card_add]; omega

theorem SumOf.near (hu : 0 ≤ u) (hu1 : u < 1) {v g : Fin n → ℝ} {k : ℕ} (hg : ∀ i, 0 ≤ g i)
    (hv : ∀ i, Near u k (g i) (v i)) {m : Multiset (Fin n)} {z : ℝ} (h : SumOf u v m z) :
    Near u (k + (m.card - 1)) (m.map g).sum z := by
  induction h with
  | one i => simpa using hv i
  | @add a b s t z ha hb hz h1 h2 =>
    have ca := ha.pos
    have cb := hb.pos
    have pa : 0 ≤ (a.map g).sum := Multiset.sum_nonneg (by simpa using fun i _ => hg i)
    have pb : 0 ≤ (b.map g).sum := Multiset.sum_nonneg (by simpa using fun i _ => hg i)
    rw [Multiset.map_add, Multiset.sum_add, Multiset.card_add]
    have h1' : Near u (k + (a.card + b.card - 2)) (a.map g).sum s := h1.mono hu hu1 pa (by omega)
    have h2' : Near u (k + (a.card + b.card - 2)) (b.map g).sum t := h2.mono hu hu1 pb (by omega)
    have hs := h1'.add h2'
    have hr := hs.trans hu1 (hz.near hu hu1 (hs.nonneg hu1 (add_nonneg pa pb)))
    refine hr.mono hu hu1 (add_nonneg pa pb) (by omega)

theorem SumOf.dev (hu : 0 ≤ u) (hu1 : u < 1) {v g G : Fin n → ℝ} {k : ℕ}
    (hv : ∀ i, Dev u k (G i) (g i) (v i)) {m : Multiset (Fin n)} {z : ℝ} (h : SumOf u v m z) :
    Dev u (k + (m.card - 1)) (m.map G).sum (m.map g).sum z := by
  induction h with
  | one i => simpa using hv i
  | @add a b s t z ha hb hz h1 h2 =>
    have ca := ha.pos
    have cb := hb.pos
    rw [Multiset.map_add, Multiset.sum_add, Multiset.map_add, Multiset.sum_add, Multiset.card_add]
    have h1' : Dev u (k + (a.card + b.card - 2)) (a.map G).sum (a.map g).sum s :=
      h1.mono hu hu1 (by omega) le_rfl
    have h2' : Dev u (k + (a.card + b.card - 2)) (b.map G).sum (b.map g).sum t :=
      h2.mono hu hu1 (by omega) le_rfl
    exact ((h1'.add h2').round hu hu1 hz).mono hu hu1 (by omega) le_rfl

end

/-! ## Expressions -/

/-- The value of `e` is not negative, and computed values are the exact one after `k` roundings. -/
def Rel (u : ℝ) (e : Ex) (k : ℕ) : Prop := 0 ≤ e.val ∧ ∀ z, e.Rounds u z → Near u k e.val z

/-- Computed values of `e` have an error of at most `((1 - u)⁻ᵏ - 1) X`. -/
def Err (u : ℝ) (e : Ex) (k : ℕ) (X : ℝ) : Prop := |e.val| ≤ X ∧ ∀ z, e.Rounds u z → Dev u k X e.val z

/-- Inputs are not negative, and no sum is empty. -/
def Ex.Proper : Ex → Prop
  | .inp x _ => 0 ≤ x
  | .const _ => True
  | .neg a => a.Proper
  | .add a b => a.Proper ∧ b.Proper
  | .sub a b => a.Proper ∧ b.Proper
  | .mul a b => a.Proper ∧ b.Proper
  | .div a b => a.Proper ∧ b.Proper
  | .sqrt a => a.Proper
  | .abs a => a.Proper
  | .clampMin a _ => a.Proper
  | .npow a _ => a.Proper
  | .rpow a _ _ _ => a.Proper
  | .exp a => a.Proper
  | .sum n f => 0 < n ∧ ∀ i, (f i).Proper
  | .sel a b x y => a.Proper ∧ b.Proper ∧ x.Proper ∧ y.Proper

namespace Ex
variable {u : ℝ} (hu : 0 ≤ u) (hu1 : u < 1)
include hu hu1

omit hu hu1 in
theorem rel_inp {x : ℝ} {k : ℕ} (hx : 0 ≤ x) : Rel u (inp x k) k :=
  ⟨hx, fun z h => by cases h; assumption⟩

theorem rel_const {c : ℝ} (hc : 0 ≤ c) : Rel u (const c) 0 :=
  ⟨hc, fun z h => by cases h; exact near_refl hu hu1 hc 0⟩

theorem rel_mono {e : Ex} {k l : ℕ} (h : Rel u e k) (hkl : k ≤ l) : Rel u e l :=
  ⟨h.1, fun z hz => (h.2 z hz).mono hu hu1 h.1 hkl⟩

theorem rel_add {a b : Ex} {k l m : ℕ} (ha : Rel u a k) (hb : Rel u b l) (hk : k < m) (hl : l < m) :
    Rel u (add a b) m := by
  refine ⟨add_nonneg ha.1 hb.1, fun z h => ?_⟩
  cases h with
  | @add _ _ x y _ hx hy hz =>
    have n1 : Near u (m - 1) a.val x := (ha.2 x hx).mono hu hu1 ha.1 (by omega)
    have n2 : Near u (m - 1) b.val y := (hb.2 y hy).mono hu hu1 hb.1 (by omega)
    have n3 := n1.add n2
    have n4 := n3.trans hu1 (hz.near hu hu1 (n3.nonneg hu1 (add_nonneg ha.1 hb.1)))
    exact n4.mono hu hu1 (add_nonneg ha.1 hb.1) (by omega)

theorem rel_mul {a b : Ex} {k l m : ℕ} (ha : Rel u a k) (hb : Rel u b l) (hm : k + l < m) :
    Rel u (mul a b) m := by
  have h0 := mul_nonneg ha.1 hb.1
  refine ⟨h0, fun z h => ?_⟩
  cases h with
  | @mul _ _ x y _ hx hy hz =>
    have n3 := (ha.2 x hx).mul hu1 (hb.2 y hy) ha.1 hb.1
    exact (n3.trans hu1 (hz.near hu hu1 (n3.nonneg hu1 h0))).mono hu hu1 h0 (by omega)

theorem rel_div {a b : Ex} {k l m : ℕ} (ha : Rel u a k) (hb : Rel u b l) (hb0 : 0 < b.val)
    (hm : k + l < m) : Rel u (div a b) m := by
  have h0 := div_nonneg ha.1 hb.1
  refine ⟨h0, fun z h => ?_⟩
  cases h with
  | @div _ _ x y _ hx hy hz =>
    have n3 := (ha.2 x hx).div hu1 (hb.2 y hy) ha.1 hb0
    exact (n3.trans hu1 (hz.near hu hu1 (n3.nonneg hu1 h0))).mono hu hu1 h0 (by omega)

theorem rel_sqrt {a : Ex} {k m : ℕ} (ha : Rel u a (2 * k)) (hm : k < m) : Rel u (sqrt a) m := by
  refine ⟨Real.sqrt_nonneg _, fun z h => ?_⟩
  cases h with
  | @sqrt _ x _ hx hz =>
    exact ((ha.2 x hx).sqrt hu1 |>.trans hu1 (hz.near hu hu1 (Real.sqrt_nonneg _))).mono hu hu1
      (Real.sqrt_nonneg _) (by omega)

omit hu in
theorem rel_abs {a : Ex} {k : ℕ} (ha : Rel u a k) : Rel u (abs a) k := by
  refine ⟨abs_nonneg _, fun z h => ?_⟩
  cases h with
  | @abs _ x hx =>
    have n := ha.2 x hx
    simp only [val]
    rw [abs_of_nonneg ha.1, abs_of_nonneg (n.nonneg hu1 ha.1)]
    exact n

theorem rel_clamp {a : Ex} {k : ℕ} {c : ℝ} (ha : Rel u a k) (hc : 0 ≤ c) : Rel u (clampMin a c) k := by
  refine ⟨le_max_of_le_right hc, fun z h => ?_⟩
  cases h with
  | @clampMin _ _ x hx => exact (ha.2 x hx).max hu hu1 hc

theorem rel_npow {a : Ex} {k l m : ℕ} (ha : Rel u a k) (hm : l * k < m) : Rel u (npow a l) m := by
  have h0 := pow_nonneg ha.1 l
  refine ⟨h0, fun z h => ?_⟩
  cases h with
  | @npow _ _ x _ hx hz =>
    have n := (ha.2 x hx).npow hu1 ha.1 l
    exact (n.trans hu1 (hz.near hu hu1 (n.nonneg hu1 h0))).mono hu hu1 h0 (by omega)

theorem rel_rpow {a : Ex} {k l L q m : ℕ} {p s : ℝ} (ha : Rel u a k) (h0 : 0 < a.val) (hp : 0 ≤ p / s)
    (hl : l * u ≤ 1) (hq : p / s ≤ q * (1 - l * u)) (hL : p / s * |Real.log a.val| ≤ L)
    (hm : q * k + l * L < m) : Rel u (rpow a p s l) m := by
  have hv : 0 ≤ a.val ^ (p / s) := Real.rpow_nonneg ha.1 _
  refine ⟨hv, fun z h => ?_⟩
  cases h with
  | @rpow _ _ _ x r _ _ hx hr hz =>
    have n := (ha.2 x hx).rpow hu hu1 h0 hp hr hl hq hL
    exact (n.trans hu1 (hz.near hu hu1 (n.nonneg hu1 hv))).mono hu hu1 hv (by omega)

theorem rel_sum {n k m : ℕ} {f : Fin n → Ex} (hf : ∀ i, Rel u (f i) k) (hm : k + (n - 1) ≤ m) :
    Rel u (sum n f) m := by
  have h0 : 0 ≤ ∑ i, (f i).val := Finset.sum_nonneg fun i _ => (hf i).1
  refine ⟨h0, fun z h => ?_⟩
  cases h with
  | @sum _ _ v _ hv hs =>
    have n := hs.near hu hu1 (g := fun i => (f i).val) (fun i => (hf i).1)
      (fun i => (hf i).2 _ (hv i))
    rw [Finset.card_val, Finset.card_univ, Fintype.card_fin] at n
    exact n.mono hu hu1 h0 hm

theorem rel_sel {a b x y : Ex} {k l m : ℕ} (ha : Rel u a k) (hb : Rel u b l)
    (htie : a.val ≤ (1 - u) ^ (k + l) * b.val ∨ b.val < (1 - u) ^ (k + l) * a.val)
    (hx : Rel u x m) (hy : Rel u y m) : Rel u (sel a b x y) m := by
  have hw : 0 < 1 - u := by linarith
  have hkl : 0 < (1 - u) ^ (k + l) := pow_pos hw _
  have hkl1 : (1 - u) ^ (k + l) ≤ 1 := pow_le_one₀ hw.le (by linarith)
  have hk : 0 < (1 - u) ^ k := pow_pos hw _
  have hl : 0 < (1 - u) ^ l := pow_pos hw _
  refine ⟨?_, fun z h => ?_⟩
  · simp only [val]; split_ifs
    · exact hx.1
    · exact hy.1
  · cases h with
    | @sel_le _ _ _ _ p q _ hp hq hle hz =>
      have : a.val ≤ b.val := by
        rcases htie with h | h
        · exact h.trans (mul_le_of_le_one_left hb.1 hkl1)
        · exfalso
          have h1 := (ha.2 p hp).1
          have h2 := (hb.2 q hq).2
          have h3 : (1 - u) ^ (k + l) * a.val ≤ b.val := by
            calc (1 - u) ^ (k + l) * a.val = (1 - u) ^ l * ((1 - u) ^ k * a.val) := by
                  rw [pow_add]; ring
              _ ≤ (1 - u) ^ l * q := mul_le_mul_of_nonneg_left (h1.trans hle) hl.le
              _ ≤ b.val := h2
          linarith
      simp only [val]
      rw [if_pos this]
      exact hx.2 z hz
    | @sel_gt _ _ _ _ p q _ hp hq hlt hz =>
      have : ¬ a.val ≤ b.val := by
        rcases htie with h | h
        · exfalso
          have h1 := (ha.2 p hp).2
          have h2 := (hb.2 q hq).1
          have h3 : (1 - u) ^ k * ((1 - u) ^ l * b.val) < a.val := by
            calc (1 - u) ^ k * ((1 - u) ^ l * b.val) ≤ (1 - u) ^ k * q :=
                  mul_le_mul_of_nonneg_left h2 hk.le
              _ < (1 - u) ^ k * p := mul_lt_mul_of_pos_left hlt hk
              _ ≤ a.val := h1
          rw [← mul_assoc, ← pow_add] at h3
          linarith
        · intro hle
          have := mul_le_of_le_one_left ha.1 hkl1
          linarith
      simp only [val]
      rw [if_neg this]
      exact hy.2 z hz

theorem err_of_rel {e : Ex} {k : ℕ} (h : Rel u e k) : Err u e k e.val :=
  ⟨(abs_of_nonneg h.1).le, fun z hz => (h.2 z hz).dev hu hu1 h.1⟩

theorem err_mono {e : Ex} {k l : ℕ} {X Y : ℝ} (h : Err u e k X) (hkl : k ≤ l) (hXY : X ≤ Y) :
    Err u e l Y :=
  ⟨h.1.trans hXY, fun z hz => (h.2 z hz).mono hu hu1 hkl hXY⟩

omit hu hu1 in
theorem err_neg {e : Ex} {k : ℕ} {X : ℝ} (h : Err u e k X) : Err u (neg e) k X :=
  ⟨by simp only [val]; rw [abs_neg]; exact h.1, fun z hz => by
    cases hz with
    | neg hx => exact (h.2 _ hx).neg⟩

theorem err_add {a b : Ex} {k l m : ℕ} {X Y : ℝ} (ha : Err u a k X) (hb : Err u b l Y) (hk : k < m)
    (hl : l < m) : Err u (add a b) m (X + Y) := by
  refine ⟨(abs_add_le _ _).trans (add_le_add ha.1 hb.1), fun z h => ?_⟩
  cases h with
  | @add _ _ x y _ hx hy hz =>
    have n1 : Dev u (m - 1) X a.val x := (ha.2 x hx).mono hu hu1 (by omega) le_rfl
    have n2 : Dev u (m - 1) Y b.val y := (hb.2 y hy).mono hu hu1 (by omega) le_rfl
    exact ((n1.add n2).round hu hu1 hz).mono hu hu1 (by omega) le_rfl

theorem err_sub {a b : Ex} {k l m : ℕ} {X Y : ℝ} (ha : Err u a k X) (hb : Err u b l Y) (hk : k < m)
    (hl : l < m) : Err u (sub a b) m (X + Y) := by
  refine ⟨(abs_sub _ _).trans (add_le_add ha.1 hb.1), fun z h => ?_⟩
  cases h with
  | @sub _ _ x y _ hx hy hz =>
    have n1 : Dev u (m - 1) X a.val x := (ha.2 x hx).mono hu hu1 (by omega) le_rfl
    have n2 : Dev u (m - 1) Y b.val y := (hb.2 y hy).mono hu hu1 (by omega) le_rfl
    exact ((n1.sub n2).round hu hu1 hz).mono hu hu1 (by omega) le_rfl

theorem err_mul {a b : Ex} {k l m : ℕ} {X Y : ℝ} (ha : Err u a k X) (hb : Err u b l Y)
    (hm : k + l < m) : Err u (mul a b) m (X * Y) := by
  refine ⟨?_, fun z h => ?_⟩
  · simp only [val]; rw [abs_mul]
    exact mul_le_mul ha.1 hb.1 (abs_nonneg _) ((abs_nonneg _).trans ha.1)
  cases h with
  | @mul _ _ x y _ hx hy hz =>
    exact (((ha.2 x hx).mul hu hu1 (hb.2 y hy)).round hu hu1 hz).mono hu hu1 (by omega) le_rfl

theorem err_div {a b : Ex} {k l m : ℕ} {X : ℝ} (ha : Err u a k X) (hb : Rel u b l) (hb0 : 0 < b.val)
    (hm : k + l < m) : Err u (div a b) m (X / b.val) := by
  have hX : 0 ≤ X := (abs_nonneg _).trans ha.1
  refine ⟨?_, fun z h => ?_⟩
  · simp only [val]; rw [abs_div, abs_of_pos hb0]; exact div_le_div_of_nonneg_right ha.1 hb0.le
  cases h with
  | @div _ _ x y _ hx hy hz =>
    have n := ((hb.2 y hy).inv hu1 hb0).dev hu hu1 (inv_nonneg.2 hb0.le)
    have n2 := (ha.2 x hx).mul hu hu1 n
    rw [← div_eq_mul_inv, ← div_eq_mul_inv, ← div_eq_mul_inv] at n2
    exact (n2.round hu hu1 hz).mono hu hu1 (by omega) le_rfl

theorem err_sum {n k m : ℕ} {f : Fin n → Ex} {X : Fin n → ℝ} (hf : ∀ i, Err u (f i) k (X i))
    (hm : k + (n - 1) ≤ m) : Err u (sum n f) m (∑ i, X i) := by
  refine ⟨(Finset.abs_sum_le_sum_abs _ _).trans (Finset.sum_le_sum fun i _ => (hf i).1),
    fun z h => ?_⟩
  cases h with
  | @sum _ _ v _ hv hs =>
    have n := hs.dev hu hu1 (g := fun i => (f i).val) (G := X) (fun i => (hf i).2 _ (hv i))
    rw [Finset.card_val, Finset.card_univ, Fintype.card_fin] at n
    exact n.mono hu hu1 hm le_rfl

omit hu hu1 in
theorem err_zero {k : ℕ} : Err u (const 0) k 0 :=
  ⟨by simp [val], fun z h => by cases h; exact ⟨by simp [val], by simp [val]⟩⟩

/-- `torch.where(a <= b, x, 0)` -/
theorem err_sel {a b x : Ex} {k l m : ℕ} {X : ℝ} (ha : Rel u a k) (hb : Rel u b l)
    (htie : a.val ≤ (1 - u) ^ (k + l) * b.val ∨ b.val < (1 - u) ^ (k + l) * a.val)
    (hx : Err u x m X) : Err u (sel a b x (const 0)) m (if a.val ≤ b.val then X else 0) := by
  have hw : 0 < 1 - u := by linarith
  have hkl1 : (1 - u) ^ (k + l) ≤ 1 := pow_le_one₀ hw.le (by linarith)
  have hk : 0 < (1 - u) ^ k := pow_pos hw _
  have hl : 0 < (1 - u) ^ l := pow_pos hw _
  refine ⟨?_, fun z h => ?_⟩
  · simp only [val]; split_ifs
    · exact hx.1
    · simp
  · cases h with
    | @sel_le _ _ _ _ p q _ hp hq hle hz =>
      have : a.val ≤ b.val := by
        rcases htie with h | h
        · exact h.trans (mul_le_of_le_one_left hb.1 hkl1)
        · exfalso
          have h1 := (ha.2 p hp).1
          have h2 := (hb.2 q hq).2
          have h3 : (1 - u) ^ (k + l) * a.val ≤ b.val := by
            calc (1 - u) ^ (k + l) * a.val = (1 - u) ^ l * ((1 - u) ^ k * a.val) := by
                  rw [pow_add]; ring
              _ ≤ (1 - u) ^ l * q := mul_le_mul_of_nonneg_left (h1.trans hle) hl.le
              _ ≤ b.val := h2
          linarith
      simp only [val]
      rw [if_pos this, if_pos this]
      exact hx.2 z hz
    | @sel_gt _ _ _ _ p q _ hp hq hlt hz =>
      have : ¬ a.val ≤ b.val := by
        rcases htie with h | h
        · exfalso
          have h1 := (ha.2 p hp).2
          have h2 := (hb.2 q hq).1
          have h3 : (1 - u) ^ k * ((1 - u) ^ l * b.val) < a.val := by
            calc (1 - u) ^ k * ((1 - u) ^ l * b.val) ≤ (1 - u) ^ k * q :=
                  mul_le_mul_of_nonneg_left h2 hk.le
              _ < (1 - u) ^ k * p := mul_lt_mul_of_pos_left hlt hk
              _ ≤ a.val := h1
          rw [← mul_assoc, ← pow_add] at h3
          linarith
        · intro hle
          have := mul_le_of_le_one_left ha.1 hkl1
          linarith
      simp only [val]
      rw [if_neg this, if_neg this]
      exact err_zero.2 z hz

omit hu1 in
theorem sumOf_exact {n : ℕ} (v : Fin n → ℝ) (l : List (Fin n)) (hl : l ≠ []) :
    SumOf u v (l : Multiset (Fin n)) (l.map v).sum := by
  induction l with
  | nil => exact absurd rfl hl
  | cons i l ih =>
    by_cases h : l = []
    · subst h; simpa using SumOf.one (u := u) (v := v) i
    · have := SumOf.add (SumOf.one (u := u) (v := v) i) (ih h)
        (z := v i + (l.map v).sum) (by
          unfold Fl; rw [sub_self, abs_zero]; exact mul_nonneg hu (abs_nonneg _))
      simpa using this

/-- Exact arithmetic is a possible outcome. -/
theorem Proper.exact {e : Ex} (h : e.Proper) : e.Rounds u e.val := by
  have fl : ∀ x, Fl u x x := fun x => by
    unfold Fl; rw [sub_self, abs_zero]; exact mul_nonneg hu (abs_nonneg _)
  induction e with
  | inp x k => exact .inp (near_refl hu hu1 h k)
  | const c => exact .const c
  | neg a ha => exact .neg (ha h)
  | add a b ha hb => exact .add (ha h.1) (hb h.2) (fl _)
  | sub a b ha hb => exact .sub (ha h.1) (hb h.2) (fl _)
  | mul a b ha hb => exact .mul (ha h.1) (hb h.2) (fl _)
  | div a b ha hb => exact .div (ha h.1) (hb h.2) (fl _)
  | sqrt a ha => exact .sqrt (ha h) (fl _)
  | abs a ha => exact .abs (ha h)
  | clampMin a c ha => exact .clampMin (ha h)
  | npow a k ha => exact .npow (ha h) (fl _)
  | rpow a p q k ha =>
    refine .rpow (ha h) ?_ (fl _)
    unfold Fl; rw [sub_self, abs_zero]; positivity
  | exp a ha => exact .exp (ha h) (fl _)
  | sum n f hf =>
    refine .sum (fun i => hf i (h.2 i)) ?_
    have := sumOf_exact hu (fun i => (f i).val) (List.finRange n) (by
      intro h0
      have := congrArg List.length h0
      simp at this
      exact h.1.ne' this)
    have e1 : (List.finRange n : Multiset (Fin n)) = Finset.univ.val := rfl
    have e2 : ((List.finRange n).map fun i => (f i).val).sum = ∑ i, (f i).val := by
      rw [← List.ofFn_eq_map, List.sum_ofFn]
    rw [e1, e2] at this
    exact this
  | sel a b x y ha hb hx hy =>
    simp only [val]
    split_ifs with hc
    · exact .sel_le (ha h.1) (hb h.2.1) hc (hx h.2.2.1)
    · exact .sel_gt (ha h.1) (hb h.2.1) (not_le.1 hc) (hy h.2.2.2)

end Ex

end TadDftd4.Rounded
