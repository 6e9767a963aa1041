import Verif.Lemmas.IeeeSingle

/-!
# Finite results in single precision

`Fine u e P`: every evaluation of `e` in `torch.float32` gives a number with the property `P`. Other than
`Sound` this allows underflow. `Lo u e m`: every evaluation gives a number that is at least `2^m`, or
infinity.
-/

open scoped Classical

namespace TadDftd4.Rounded

open Fmt

/-- Absolute value of at most `2^M`. -/
def Up (M : ℤ) (z : ℝ) : Prop := |z| ≤ (2 : ℝ) ^ M
/-- Between zero and `2^M`. -/
def Nn (M : ℤ) (z : ℝ) : Prop := 0 ≤ z ∧ z ≤ (2 : ℝ) ^ M
/-- Between `2^m` and `2^M`. -/
def Ps (m M : ℤ) (z : ℝ) : Prop := (2 : ℝ) ^ m ≤ z ∧ z ≤ (2 : ℝ) ^ M

/-- Every evaluation in single precision gives a finite number with a property. -/
def Fine (u : ℝ) (e : Ex) (P : ℝ → Prop) : Prop := ∀ r, e.Runs binary32 u r → ∃ z, r = .fin z ∧ P z

/-- Every evaluation in single precision gives a large enough number or infinity. -/
def Lo (u : ℝ) (e : Ex) (m : ℤ) : Prop :=
  ∀ r, e.Runs binary32 u r → r = .pinf ∨ ∃ z, r = .fin z ∧ (2 : ℝ) ^ m ≤ z

theorem Nn.up {M : ℤ} {z : ℝ} (h : Nn M z) : Up M z := by
  unfold Up; rw [abs_of_nonneg h.1]; exact h.2
theorem Ps.pos {m M : ℤ} {z : ℝ} (h : Ps m M z) : 0 < z := lt_of_lt_of_le (two_zpow_pos m) h.1
theorem Ps.nn {m M : ℤ} {z : ℝ} (h : Ps m M z) : Nn M z := ⟨h.pos.le, h.2⟩
theorem Ps.up {m M : ℤ} {z : ℝ} (h : Ps m M z) : Up M z := h.nn.up
theorem In.ps {m M : ℤ} {z : ℝ} (h : In .pos m M z) : Ps m M z := ⟨h.ge, h.le⟩
theorem Ps.mono {m M m' M' : ℤ} {z : ℝ} (h : Ps m M z) (h1 : m' ≤ m) (h2 : M ≤ M') : Ps m' M' z :=
  ⟨(two_zpow_le h1).trans h.1, h.2.trans (two_zpow_le h2)⟩
theorem Nn.mono {M M' : ℤ} {z : ℝ} (h : Nn M z) (h2 : M ≤ M') : Nn M' z := ⟨h.1, h.2.trans (two_zpow_le h2)⟩
theorem Up.mono {M M' : ℤ} {z : ℝ} (h : Up M z) (h2 : M ≤ M') : Up M' z := le_trans h (two_zpow_le h2)

theorem num_zpow32 {m : ℤ} (h1 : -149 ≤ m) (h2 : m ≤ 127) : binary32.Num ((2 : ℝ) ^ m) :=
  ok32.num_zpow h1 (by show m ≤ (104 : ℤ) + (24 : ℕ) - 1; omega)

theorem zpow_le_big32 {m : ℤ} (h2 : m ≤ 127) : (2 : ℝ) ^ m ≤ binary32.big :=
  ok32.zpow_le_big (by show m ≤ (104 : ℤ) + (24 : ℕ) - 1; omega)

theorem round_iv {x a b : ℝ} {r : FP} (h : binary32.Round (.fin x) r) (ha : binary32.Num a)
    (hb : binary32.Num b) (h1 : a ≤ x) (h2 : x ≤ b) : ∃ z, r = .fin z ∧ a ≤ z ∧ z ≤ b := by
  have hx : |x| ≤ binary32.big :=
    abs_le.2 ⟨by linarith [(abs_le.1 ha.le_big).1], by linarith [(abs_le.1 hb.le_big).2]⟩
  obtain ⟨z, rfl, hz⟩ := h.fin.1 hx
  exact ⟨z, rfl, hz.ge ha h1, hz.le hb h2⟩

theorem round_up {x : ℝ} {M : ℤ} {r : FP} (h : binary32.Round (.fin x) r) (hx : Up M x) (h1 : -149 ≤ M)
    (h2 : M ≤ 127) : ∃ z, r = .fin z ∧ Up M z := by
  have n := num_zpow32 h1 h2
  obtain ⟨z, e, a, b⟩ := round_iv h n.neg n (abs_le.1 hx).1 (abs_le.1 hx).2
  exact ⟨z, e, abs_le.2 ⟨a, b⟩⟩

theorem round_nn {x : ℝ} {M : ℤ} {r : FP} (h : binary32.Round (.fin x) r) (hx : Nn M x) (h1 : -149 ≤ M)
    (h2 : M ≤ 127) : ∃ z, r = .fin z ∧ Nn M z :=
  round_iv h ok32.num_zero (num_zpow32 h1 h2) hx.1 hx.2

theorem round_ps {x : ℝ} {m M : ℤ} {r : FP} (h : binary32.Round (.fin x) r) (hx : Ps m M x)
    (h1 : -149 ≤ m) (h2 : M ≤ 127) : ∃ z, r = .fin z ∧ Ps m M z := by
  have hm : m ≤ M := by
    by_contra hc
    have := zpow_lt_zpow_right₀ (one_lt_two (α := ℝ)) (not_le.1 hc)
    linarith [hx.1, hx.2]
  exact round_iv h (num_zpow32 h1 (by omega)) (num_zpow32 (by omega) h2) hx.1 hx.2

/-- Numbers that are at least `2^m` stay so, or overflow. -/
theorem round_lo {x : ℝ} {m : ℤ} {r : FP} (h : binary32.Round (.fin x) r) (hx : (2 : ℝ) ^ m ≤ x)
    (h1 : -149 ≤ m) (h2 : m ≤ 127) : r = .pinf ∨ ∃ z, r = .fin z ∧ (2 : ℝ) ^ m ≤ z := by
  have hx0 : 0 < x := lt_of_lt_of_le (two_zpow_pos m) hx
  rcases le_or_gt (|x|) binary32.big with hb | hb
  · obtain ⟨z, rfl, hz⟩ := h.fin.1 hb
    exact Or.inr ⟨z, rfl, hz.ge (num_zpow32 h1 h2) hx⟩
  · rw [abs_of_pos hx0] at hb
    rcases h.fin.2.1 hb with e | e
    · exact Or.inr ⟨_, e, zpow_le_big32 h2⟩
    · exact Or.inl e

/-- Powers of non-negative numbers. -/
theorem func_nn {u x : ℝ} {M : ℤ} {r : FP} (hu1 : 2 * u ≤ 1) (h : binary32.RoundF u (.fin x) r)
    (hx : Nn M x) (h1 : -126 ≤ M) (h2 : M + 1 ≤ 127) : ∃ z, r = .fin z ∧ Nn (M + 1) z := by
  have hf := h.1 x rfl
  have hp := two_zpow_pos M
  have e1 : (2 : ℝ) ^ (M + 1) = 2 * (2 : ℝ) ^ M := by rw [zpow_add_one₀ two_ne_zero]; ring
  rcases hx.1.eq_or_lt with h0 | h0
  · exact ⟨0, hf.1 h0.symm, le_rfl, (two_zpow_pos _).le⟩
  · have hs : binary32.small = (2 : ℝ) ^ (-126 : ℤ) := rfl
    rcases lt_or_ge (|x|) binary32.small with hl | hl
    · obtain ⟨z, rfl, -, a, b⟩ := hf.2.2.1 hl
      refine ⟨z, rfl, nonneg_of_mul_nonneg_right b h0, (le_abs_self z).trans (a.trans ?_)⟩
      rw [hs]; exact two_zpow_le (by omega)
    · have hb : |x| ≤ binary32.big / 2 := by
        have := zpow_le_big32 h2
        rw [abs_of_pos h0]
        linarith [hx.2]
      obtain ⟨z, rfl, -, fz⟩ := hf.2.1 hl hb
      unfold Fl at fz
      rw [abs_of_pos h0] at fz
      obtain ⟨a, b⟩ := abs_le.1 fz
      refine ⟨z, rfl, by nlinarith, ?_⟩
      rw [e1]
      nlinarith [hx.2]

/-- Powers of positive numbers are not negative, but can overflow. -/
theorem func_lo {u x : ℝ} {r : FP} (hu1 : 2 * u ≤ 1) (h : binary32.RoundF u (.fin x) r)
    (hx : 0 ≤ x) : r = .pinf ∨ ∃ z, r = .fin z ∧ 0 ≤ z := by
  have hf := h.1 x rfl
  have key : ∀ z, Fl u x z → 0 ≤ z := by
    intro z fz
    unfold Fl at fz
    rw [abs_of_nonneg hx] at fz
    nlinarith [(abs_le.1 fz).1]
  rcases hx.eq_or_lt with h0 | h0
  · exact Or.inr ⟨0, hf.1 h0.symm, le_rfl⟩
  · rcases lt_or_ge (|x|) binary32.small with hl | hl
    · obtain ⟨z, rfl, -, a, b⟩ := hf.2.2.1 hl
      exact Or.inr ⟨z, rfl, nonneg_of_mul_nonneg_right b h0⟩
    · rcases le_or_gt (|x|) (binary32.big / 2) with hb | hb
      · obtain ⟨z, rfl, -, fz⟩ := hf.2.1 hl hb
        exact Or.inr ⟨z, rfl, key z fz⟩
      · rw [abs_of_pos h0] at hb
        rcases hf.2.2.2.1 hb with e | ⟨z, e, -, fz⟩
        · exact Or.inl e
        · exact Or.inr ⟨z, e, key z fz⟩

theorem up_mul {x y : ℝ} {M M' : ℤ} (hx : Up M x) (hy : Up M' y) : Up (M + M') (x * y) := by
  unfold Up
  rw [abs_mul, zpow_add₀ two_ne_zero]
  exact mul_le_mul hx hy (abs_nonneg _) (two_zpow_pos _).le

theorem nn_mul {x y : ℝ} {M M' : ℤ} (hx : Nn M x) (hy : Nn M' y) : Nn (M + M') (x * y) :=
  ⟨mul_nonneg hx.1 hy.1, (le_abs_self _).trans (up_mul hx.up hy.up)⟩

theorem ps_mul {x y : ℝ} {m M m' M' : ℤ} (hx : Ps m M x) (hy : Ps m' M' y) :
    Ps (m + m') (M + M') (x * y) :=
  ⟨by rw [zpow_add₀ two_ne_zero]; exact mul_le_mul hx.1 hy.1 (two_zpow_pos _).le hx.pos.le,
    (nn_mul hx.nn hy.nn).2⟩

theorem fp_div {x y : ℝ} (hy : y ≠ 0) : (FP.fin x).div (.fin y) = .fin (x / y) := by
  show (if y ≠ 0 then FP.fin (x / y) else _) = _
  rw [if_pos hy]

theorem fp_sqrt {x : ℝ} (hx : 0 ≤ x) : (FP.fin x).sqrt = .fin √x := by
  show (if 0 ≤ x then FP.fin √x else _) = _
  rw [if_pos hx]

theorem sq_zpow (k : ℤ) : ((2 : ℝ) ^ k) ^ 2 = (2 : ℝ) ^ (2 * k) := by
  rw [← zpow_natCast, ← zpow_mul]; congr 1; push_cast; ring

namespace Fine
variable {u : ℝ} {a b : Ex}

theorem imp {P Q : ℝ → Prop} (h : Fine u a P) (hPQ : ∀ z, P z → Q z) : Fine u a Q :=
  fun r hr => let ⟨z, e, hz⟩ := h r hr; ⟨z, e, hPQ z hz⟩

theorem nn {m M : ℤ} (h : Fine u a (Ps m M)) : Fine u a (Nn M) := h.imp fun _ => Ps.nn
theorem up {M : ℤ} (h : Fine u a (Nn M)) : Fine u a (Up M) := h.imp fun _ => Nn.up
theorem mono {m M m' M' : ℤ} (h : Fine u a (Ps m M)) (h1 : m' ≤ m) (h2 : M ≤ M') : Fine u a (Ps m' M') :=
  h.imp fun _ hz => hz.mono h1 h2
theorem mono_nn {M M' : ℤ} (h : Fine u a (Nn M)) (h2 : M ≤ M') : Fine u a (Nn M') :=
  h.imp fun _ hz => hz.mono h2
theorem mono_up {M M' : ℤ} (h : Fine u a (Up M)) (h2 : M ≤ M') : Fine u a (Up M') :=
  h.imp fun _ hz => hz.mono h2

theorem const {c : ℝ} {P : ℝ → Prop} (h : P c) : Fine u (.const c) P := by
  intro r hr; cases hr; exact ⟨c, rfl, h⟩

theorem of_sound {m M : ℤ} (h : Sound binary32 u a (In .pos m M)) : Fine u a (Ps m M) :=
  fun r hr => let ⟨z, e, _, _, hz⟩ := h r hr; ⟨z, e, hz.ps⟩

/-- Inputs. -/
theorem inp {x : ℝ} {k : ℕ} {M : ℤ} (hx : Nn M x) (hk : 1 / 2 ≤ (1 - u) ^ k) :
    Fine u (.inp x k) (Nn (M + 1)) := by
  intro r hr
  cases hr with
  | @inp _ z _ hn hz =>
    have hp : 0 < (1 - u) ^ k := by linarith
    have hz0 : 0 ≤ z := le_trans (mul_nonneg hp.le hx.1) hn.1
    refine ⟨z, rfl, hz0, ?_⟩
    rw [zpow_add_one₀ two_ne_zero]
    nlinarith [hn.2, hx.2]

theorem inp_ps {x : ℝ} {k : ℕ} {m M : ℤ} (hx : Ps m M x) (hk : 1 / 2 ≤ (1 - u) ^ k) :
    Fine u (.inp x k) (Ps (m - 1) (M + 1)) := by
  intro r hr
  obtain ⟨z, rfl, hz⟩ := inp hx.nn hk r hr
  cases hr with
  | inp hn _ =>
    refine ⟨z, rfl, ?_, hz.2⟩
    rw [zpow_sub_one₀ two_ne_zero]
    nlinarith [hn.1, hx.1, hx.pos]

theorem neg {M : ℤ} (h : Fine u a (Up M)) : Fine u (.neg a) (Up M) := by
  intro r hr
  cases hr with
  | neg hr =>
    obtain ⟨z, rfl, hz⟩ := h _ hr
    exact ⟨-z, rfl, by unfold Up; rwa [abs_neg]⟩

theorem abs {M : ℤ} (h : Fine u a (Up M)) : Fine u (.abs a) (Nn M) := by
  intro r hr
  cases hr with
  | abs hr =>
    obtain ⟨z, rfl, hz⟩ := h _ hr
    exact ⟨|z|, rfl, abs_nonneg z, hz⟩

theorem clampMin {c : ℝ} {M : ℤ} (h : Fine u a (Nn M)) (hc : c ≤ (2 : ℝ) ^ M) :
    Fine u (.clampMin a c) (Nn M) := by
  intro r hr
  cases hr with
  | clampMin hr =>
    obtain ⟨z, rfl, hz⟩ := h _ hr
    exact ⟨max z c, rfl, hz.1.trans (le_max_left _ _), max_le hz.2 hc⟩

theorem sel {c d : Ex} {R : ℝ → Prop} (hc : Fine u c R) (hd : Fine u d R) : Fine u (.sel a b c d) R := by
  intro r hr
  cases hr with
  | sel_le _ _ _ h4 => exact hc _ h4
  | sel_gt _ _ _ h4 => exact hd _ h4

theorem mul_up {M M' : ℤ} (ha : Fine u a (Up M)) (hb : Fine u b (Up M')) (h1 : -149 ≤ M + M')
    (h2 : M + M' ≤ 127) : Fine u (.mul a b) (Up (M + M')) := by
  intro r h
  cases h with
  | mul h3 h4 h5 =>
    obtain ⟨x, rfl, hx⟩ := ha _ h3
    obtain ⟨y, rfl, hy⟩ := hb _ h4
    exact round_up h5 (up_mul hx hy) h1 h2

theorem mul_nn {M M' : ℤ} (ha : Fine u a (Nn M)) (hb : Fine u b (Nn M')) (h1 : -149 ≤ M + M')
    (h2 : M + M' ≤ 127) : Fine u (.mul a b) (Nn (M + M')) := by
  intro r h
  cases h with
  | mul h3 h4 h5 =>
    obtain ⟨x, rfl, hx⟩ := ha _ h3
    obtain ⟨y, rfl, hy⟩ := hb _ h4
    exact round_nn h5 (nn_mul hx hy) h1 h2

theorem mul_ps {m M m' M' : ℤ} (ha : Fine u a (Ps m M)) (hb : Fine u b (Ps m' M')) (h1 : -149 ≤ m + m')
    (h2 : M + M' ≤ 127) : Fine u (.mul a b) (Ps (m + m') (M + M')) := by
  intro r h
  cases h with
  | mul h3 h4 h5 =>
    obtain ⟨x, rfl, hx⟩ := ha _ h3
    obtain ⟨y, rfl, hy⟩ := hb _ h4
    exact round_ps h5 (ps_mul hx hy) h1 h2

theorem div_ps {m M m' M' : ℤ} (ha : Fine u a (Ps m M)) (hb : Fine u b (Ps m' M')) (h1 : -149 ≤ m - M')
    (h2 : M - m' ≤ 127) : Fine u (.div a b) (Ps (m - M') (M - m')) := by
  intro r h
  cases h with
  | div h3 h4 h5 =>
    obtain ⟨x, rfl, hx⟩ := ha _ h3
    obtain ⟨y, rfl, hy⟩ := hb _ h4
    rw [fp_div hy.pos.ne'] at h5
    refine round_ps h5 ⟨?_, ?_⟩ h1 h2
    · rw [zpow_sub₀ two_ne_zero]
      exact div_le_div₀ hx.pos.le hx.1 hy.pos hy.2
    · rw [zpow_sub₀ two_ne_zero]
      exact div_le_div₀ (two_zpow_pos _).le hx.2 (two_zpow_pos _) hy.1

/-- Division by a number that is large enough or infinite. -/
theorem div_lo {M m : ℤ} (ha : Fine u a (Up M)) (hb : Lo u b m) (h1 : -149 ≤ M - m)
    (h2 : M - m ≤ 127) : Fine u (.div a b) (Up (M - m)) := by
  intro r h
  cases h with
  | div h3 h4 h5 =>
    obtain ⟨x, rfl, hx⟩ := ha _ h3
    rcases hb _ h4 with rfl | ⟨y, rfl, hy⟩
    · have := ok32.round_zero h5
      exact ⟨0, this, by unfold Up; rw [abs_zero]; exact (two_zpow_pos _).le⟩
    · have hy0 : 0 < y := lt_of_lt_of_le (two_zpow_pos m) hy
      rw [fp_div hy0.ne'] at h5
      refine round_up h5 ?_ h1 h2
      unfold Up
      rw [abs_div, abs_of_pos hy0, zpow_sub₀ two_ne_zero]
      exact div_le_div₀ (two_zpow_pos _).le hx (two_zpow_pos _) hy

/-- As `div_lo`, for positive numbers. -/
theorem div_lo_nn {M m : ℤ} (ha : Fine u a (Nn M)) (hb : Lo u b m) (h1 : -149 ≤ M - m)
    (h2 : M - m ≤ 127) : Fine u (.div a b) (Nn (M - m)) := by
  intro r h
  cases h with
  | div h3 h4 h5 =>
    obtain ⟨x, rfl, hx⟩ := ha _ h3
    rcases hb _ h4 with rfl | ⟨y, rfl, hy⟩
    · exact ⟨0, ok32.round_zero h5, le_rfl, (two_zpow_pos _).le⟩
    · have hy0 : 0 < y := lt_of_lt_of_le (two_zpow_pos m) hy
      rw [fp_div hy0.ne'] at h5
      refine round_nn h5 ⟨div_nonneg hx.1 hy0.le, ?_⟩ h1 h2
      rw [zpow_sub₀ two_ne_zero]
      exact div_le_div₀ (two_zpow_pos _).le hx.2 (two_zpow_pos _) hy

theorem add_up {M M' U : ℤ} (ha : Fine u a (Up M)) (hb : Fine u b (Up M')) (h3 : M ≤ U) (h4 : M' ≤ U)
    (h1 : -149 ≤ U + 1) (h2 : U + 1 ≤ 127) : Fine u (.add a b) (Up (U + 1)) := by
  intro r h
  cases h with
  | add h5 h6 h7 =>
    obtain ⟨x, rfl, hx⟩ := ha _ h5
    obtain ⟨y, rfl, hy⟩ := hb _ h6
    exact round_up h7 (abs_add_le_zpow (hx.mono h3) (hy.mono h4)) h1 h2

theorem sub_up {M M' U : ℤ} (ha : Fine u a (Up M)) (hb : Fine u b (Up M')) (h3 : M ≤ U) (h4 : M' ≤ U)
    (h1 : -149 ≤ U + 1) (h2 : U + 1 ≤ 127) : Fine u (.sub a b) (Up (U + 1)) := by
  intro r h
  cases h with
  | sub h5 h6 h7 =>
    obtain ⟨x, rfl, hx⟩ := ha _ h5
    obtain ⟨y, rfl, hy⟩ := hb _ h6
    have h7' : binary32.Round (.fin (x + -y)) r := h7
    exact round_up h7' (abs_add_le_zpow (hx.mono h3) (by rw [abs_neg]; exact hy.mono h4)) h1 h2

/-- The sum of a number that is not negative and a positive number. -/
theorem add_nn_ps {m M M' U : ℤ} (ha : Fine u a (Nn M)) (hb : Fine u b (Ps m M')) (h3 : M ≤ U)
    (h4 : M' ≤ U) (h1 : -149 ≤ m) (h2 : U + 1 ≤ 127) : Fine u (.add a b) (Ps m (U + 1)) := by
  intro r h
  cases h with
  | add h5 h6 h7 =>
    obtain ⟨x, rfl, hx⟩ := ha _ h5
    obtain ⟨y, rfl, hy⟩ := hb _ h6
    refine round_ps h7 ⟨by linarith [hx.1, hy.1], ?_⟩ h1 h2
    exact (le_abs_self _).trans (abs_add_le_zpow (hx.up.mono h3) (hy.up.mono h4))

theorem sqrt_nn {M M' : ℤ} (ha : Fine u a (Nn M')) (h : M' ≤ 2 * M) (h1 : -149 ≤ M) (h2 : M ≤ 127) :
    Fine u (.sqrt a) (Nn M) := by
  intro r hr
  cases hr with
  | sqrt h3 h4 =>
    obtain ⟨x, rfl, hx⟩ := ha _ h3
    rw [fp_sqrt hx.1] at h4
    refine round_nn h4 ⟨Real.sqrt_nonneg x, Real.sqrt_le_iff.2 ⟨(two_zpow_pos _).le, ?_⟩⟩ h1 h2
    rw [sq_zpow]
    exact hx.2.trans (two_zpow_le h)

theorem sqrt_ps {m M m' M' : ℤ} (ha : Fine u a (Ps m' M')) (h : M' ≤ 2 * M) (h' : 2 * m ≤ m')
    (h1 : -149 ≤ m) (h2 : M ≤ 127) : Fine u (.sqrt a) (Ps m M) := by
  intro r hr
  cases hr with
  | sqrt h3 h4 =>
    obtain ⟨x, rfl, hx⟩ := ha _ h3
    rw [fp_sqrt hx.pos.le] at h4
    refine round_ps h4 ⟨Real.le_sqrt_of_sq_le ?_, Real.sqrt_le_iff.2 ⟨(two_zpow_pos _).le, ?_⟩⟩ h1 h2
    · rw [sq_zpow]; exact (two_zpow_le h').trans hx.1
    · rw [sq_zpow]; exact hx.2.trans (two_zpow_le h)

theorem npow_nn {M : ℤ} {k : ℕ} (hu1 : 2 * u ≤ 1) (ha : Fine u a (Nn M)) (h1 : -126 ≤ k * M)
    (h2 : k * M + 1 ≤ 127) : Fine u (.npow a k) (Nn (k * M + 1)) := by
  intro r hr
  cases hr with
  | npow h3 h4 =>
    obtain ⟨x, rfl, hx⟩ := ha _ h3
    refine func_nn hu1 h4 ⟨pow_nonneg hx.1 k, ?_⟩ h1 h2
    rw [mul_comm, zpow_mul, zpow_natCast]
    exact pow_le_pow_left₀ hx.1 hx.2 k

theorem npow_ps {m M : ℤ} {k : ℕ} (hu0 : 0 ≤ u) (hu1 : 2 * u ≤ 1) (ha : Fine u a (Ps m M)) (h1 : -126 ≤ k * m)
    (h2 : k * M + 1 ≤ 127) : Fine u (.npow a k) (Ps (k * m - 1) (k * M + 1)) := by
  intro r hr
  cases hr with
  | npow h3 h4 =>
    obtain ⟨x, rfl, hx⟩ := ha _ h3
    have pw : ∀ j : ℤ, (2 : ℝ) ^ (k * j) = ((2 : ℝ) ^ j) ^ k := by
      intro j; rw [← zpow_natCast, ← zpow_mul, mul_comm]
    have hm : m ≤ M := by
      by_contra hc
      have := zpow_lt_zpow_right₀ (one_lt_two (α := ℝ)) (not_le.1 hc)
      linarith [hx.1, hx.2]
    have hkm : (k : ℤ) * m ≤ k * M := mul_le_mul_of_nonneg_left hm (by positivity)
    obtain ⟨z, e, -, -, hz⟩ := func_in ok32 hu0 hu1 h4 (s := .pos) (m := k * m) (M := k * M)
      (in_pos (by rw [pw]; exact pow_le_pow_left₀ (two_zpow_pos _).le hx.1 k)
        (by rw [pw]; exact pow_le_pow_left₀ hx.pos.le hx.2 k)) (range32 h1 (by omega) h2)
    exact ⟨z, e, hz.ps⟩

theorem sumRuns {n : ℕ} {v : Fin n → ℝ} {M : ℤ} (hv : ∀ i, Up M (v i)) {N : ℕ}
    (h3 : -149 ≤ M) (h4 : M ≤ 104) (hN : N < 2 ^ 24)
    {A : Multiset (Fin n)} {r : FP} (hA : A.card ≤ N) (h : binary32.SumRuns (fun i => .fin (v i)) A r) :
    ∃ z, r = .fin z ∧ |z| ≤ A.card * (2 : ℝ) ^ M := by
  induction h with
  | one i => exact ⟨v i, rfl, by simpa [Up] using hv i⟩
  | @add A B s t r _ _ h7 ih1 ih2 =>
    rw [Multiset.card_add] at hA
    obtain ⟨x, rfl, bx⟩ := ih1 (by omega)
    obtain ⟨y, rfl, byy⟩ := ih2 (by omega)
    obtain ⟨c, hc⟩ : ∃ c : ℝ, c = ((A + B).card : ℝ) * (2 : ℝ) ^ M := ⟨_, rfl⟩
    have nc : binary32.Num c := by
      rw [hc]
      refine ⟨((A + B).card : ℤ), M, ?_, h3, h4, by push_cast; rfl⟩
      rw [abs_of_nonneg (by positivity), Multiset.card_add]
      exact_mod_cast lt_of_le_of_lt hA hN
    have hxy : |x + y| ≤ c := by
      rw [hc, Multiset.card_add]
      push_cast
      rw [add_mul]
      linarith [abs_add_le x y]
    obtain ⟨z, rfl, a, b⟩ := round_iv h7 nc.neg nc (abs_le.1 hxy).1 (abs_le.1 hxy).2
    exact ⟨z, rfl, by rw [← hc]; exact abs_le.2 ⟨a, b⟩⟩

theorem sum {n : ℕ} {f : Fin n → Ex} {M : ℤ} {N : ℕ} (hf : ∀ i, Fine u (f i) (Up M))
    (h3 : -149 ≤ M) (h4 : M ≤ 104) (hN : N < 24) (hn : n ≤ 2 ^ N) : Fine u (.sum n f) (Up (M + N)) := by
  intro r h
  cases h with
  | @sum _ _ v _ h5 h6 =>
    choose w hw using fun i => hf i _ (h5 i)
    have hv : v = fun i => .fin (w i) := funext fun i => (hw i).1
    subst hv
    obtain ⟨z, rfl, bz⟩ := sumRuns (N := 2 ^ N) (fun i => (hw i).2) h3 h4
      (Nat.pow_lt_pow_right (by norm_num) hN) (by simpa using hn) h6
    refine ⟨z, rfl, bz.trans ?_⟩
    rw [add_comm, zpow_add₀ two_ne_zero, zpow_natCast]
    refine mul_le_mul_of_nonneg_right ?_ (two_zpow_pos _).le
    have : (Finset.univ.val : Multiset (Fin n)).card = n := by simp
    rw [this]
    exact_mod_cast hn

end Fine

namespace Lo
variable {u : ℝ} {a b : Ex}

theorem of_fine {m M : ℤ} (h : Fine u a (Ps m M)) : Lo u a m :=
  fun r hr => let ⟨z, e, hz⟩ := h r hr; Or.inr ⟨z, e, hz.1⟩

theorem mono {m m' : ℤ} (h : Lo u a m) (h1 : m' ≤ m) : Lo u a m' :=
  fun r hr => (h r hr).imp_right fun ⟨z, e, hz⟩ => ⟨z, e, (two_zpow_le h1).trans hz⟩

theorem mul {m m' : ℤ} (ha : Lo u a m) (hb : Lo u b m') (h1 : -149 ≤ m + m') (h2 : m + m' ≤ 127) :
    Lo u (.mul a b) (m + m') := by
  intro r h
  cases h with
  | mul h3 h4 h5 =>
    have pi : ∀ {x : ℝ} {k : ℤ}, (2 : ℝ) ^ k ≤ x → 0 < x := fun h => lt_of_lt_of_le (two_zpow_pos _) h
    rcases ha _ h3 with rfl | ⟨x, rfl, hx⟩ <;> rcases hb _ h4 with rfl | ⟨y, rfl, hy⟩
    · left; exact h5.pinf
    · have e : FP.pinf.mul (.fin y) = .pinf := by simp [FP.mul, pi hy]
      rw [e] at h5
      left; exact h5.pinf
    · have e : (FP.fin x).mul .pinf = .pinf := by simp [FP.mul, pi hx]
      rw [e] at h5
      left; exact h5.pinf
    · refine round_lo h5 ?_ h1 h2
      rw [zpow_add₀ two_ne_zero]
      exact mul_le_mul hx hy (two_zpow_pos _).le (pi hx).le

end Lo

/-- `1 / (1 + 6 t^p)` is between 0 and 1, also if the power overflows or underflows. -/
theorem Fine.damping {u : ℝ} {t : Ex} {m M : ℤ} {p q : ℝ} {k : ℕ} (hu1 : 2 * u ≤ 1) (ht : Fine u t (Ps m M)) :
    Fine u (.div (.const 1) (.add (.const 1) (.mul (.const 6) (.rpow t p q k)))) (Nn 0) := by
  have key : Lo u (.add (.const 1) (.mul (.const 6) (.rpow t p q k))) 0 := by
    intro r hr
    cases hr with
    | add h1 h2 h3 =>
      cases h1
      cases h2 with
      | mul h4 h5 h6 =>
        cases h4
        cases h5 with
        | @rpow _ _ _ y _ s _ h7 hy h8 =>
          obtain ⟨x, rfl, hx⟩ := ht _ h7
          have e : (FP.fin x).tpow (.fin y) = .fin (x ^ y) := by
            show (if 0 < x then FP.fin (id (x ^ y)) else _) = _
            rw [if_pos hx.pos]; rfl
          rw [e] at h8
          rcases func_lo hu1 h8 (Real.rpow_nonneg hx.pos.le y) with rfl | ⟨z, rfl, hz⟩
          · have e5 : (FP.fin 6).mul .pinf = .pinf := by simp [FP.mul]
            rw [e5] at h6
            rw [h6.pinf] at h3
            have e6 : (FP.fin 1).add .pinf = .pinf := rfl
            rw [e6] at h3
            exact Or.inl h3.pinf
          · have h6' : binary32.Round (.fin (6 * z)) _ := h6
            have : ∀ w : ℝ, 0 ≤ w → (2 : ℝ) ^ (0 : ℤ) ≤ 1 + w := by intro w hw; rw [zpow_zero]; linarith
            rcases le_or_gt (|6 * z|) binary32.big with hb | hb
            · obtain ⟨w, rfl, hw⟩ := h6'.fin.1 hb
              exact round_lo h3 (this w (hw.ge ok32.num_zero (by linarith))) (by norm_num) (by norm_num)
            · rw [abs_of_nonneg (by linarith)] at hb
              rcases h6'.fin.2.1 hb with rfl | rfl
              · exact round_lo h3 (this _ ok32.big_pos.le) (by norm_num) (by norm_num)
              · have e6 : (FP.fin 1).add .pinf = .pinf := rfl
                rw [e6] at h3
                exact Or.inl h3.pinf
  have one : Fine u (.const 1) (Nn 0) := Fine.const ⟨by norm_num, by norm_num⟩
  exact Fine.div_lo_nn one key (by norm_num) (by norm_num)

end TadDftd4.Rounded
