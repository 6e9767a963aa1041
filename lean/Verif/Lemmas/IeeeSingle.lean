import Verif.Lemmas.IeeeSound

/-!
# Three atoms at the same place in single precision

The fifth power of the product of the three distances underflows to zero, so the angular term is not
finite, while the damping function is zero: the product is NaN.
-/

open scoped Classical

namespace TadDftd4.Rounded

open Fmt

theorem ok32 : binary32.Ok := ⟨by decide, by decide⟩

theorem range32 {m M : ℤ} (h1 : -126 ≤ m) (h2 : m ≤ M) (h3 : M ≤ 127) : Range binary32 m M :=
  ⟨by show (-149 : ℤ) + (24 : ℕ) - 1 ≤ m; omega, h2, by show M ≤ (104 : ℤ) + (24 : ℕ) - 1; omega⟩

theorem num32 {x : ℝ} (m e : ℤ) (h : |m| < 2 ^ 24) (h1 : -149 ≤ e) (h2 : e ≤ 104)
    (hx : x = m * (2 : ℝ) ^ e) : binary32.Num x := ⟨m, e, h, h1, h2, hx⟩

/-- Infinity or NaN. -/
def NotFin (r : FP) : Prop := ∀ x, r ≠ .fin x

theorem Fmt.Round.notFin {F : Fmt} {s r : FP} (h : F.Round s r) (hs : NotFin s) : r = s := h.2 hs

theorem div_zero_notFin (r : FP) : NotFin (r.div (.fin 0)) := by
  intro x
  cases r with
  | fin a =>
    show (if (0 : ℝ) ≠ 0 then FP.fin (a / 0) else _) ≠ _
    rw [if_neg (by simp)]
    split_ifs <;> exact fun h => nomatch h
  | pinf =>
    show (if (0 : ℝ) ≤ 0 then FP.pinf else FP.ninf) ≠ _
    rw [if_pos le_rfl]; exact fun h => nomatch h
  | ninf =>
    show (if (0 : ℝ) ≤ 0 then FP.ninf else FP.pinf) ≠ _
    rw [if_pos le_rfl]; exact fun h => nomatch h
  | nan => exact fun h => nomatch h

theorem add_notFin {r s : FP} (h : NotFin r) : NotFin (r.add s) := by
  intro x
  cases r <;> cases s <;> simp only [FP.add, ne_eq, reduceCtorEq, not_false_eq_true]
  exact absurd rfl (h _)

theorem mul_zero_nan {r : FP} (h : NotFin r) : r.mul (.fin 0) = .nan := by
  cases r with
  | fin a => exact absurd rfl (h a)
  | pinf => simp [FP.mul]
  | ninf => simp [FP.mul]
  | nan => rfl

theorem nan_mul (r : FP) : FP.nan.mul r = .nan := by cases r <;> rfl
theorem nan_add (r : FP) : FP.nan.add r = .nan := by cases r <;> rfl
theorem add_nan (r : FP) : r.add FP.nan = .nan := by cases r <;> rfl
theorem nan_div (r : FP) : FP.nan.div r = .nan := by cases r <;> rfl

theorem Fmt.Round.nan {F : Fmt} {r : FP} (h : F.Round .nan r) : r = .nan := h.2 fun _ hx => nomatch hx
theorem Fmt.Round.pinf {F : Fmt} {r : FP} (h : F.Round .pinf r) : r = .pinf := h.2 fun _ hx => nomatch hx

theorem Fmt.Ok.round_zero {F : Fmt} (hF : F.Ok) {r : FP} (h : F.Round (.fin 0) r) : r = .fin 0 := by
  obtain ⟨z, rfl, hz⟩ := (h.1 0 rfl).1 (by rw [abs_zero]; exact hF.big_pos.le)
  rw [hz.eq hF.num_zero]

theorem sumRuns_nan {F : Fmt} {n : ℕ} {v : Fin n → FP} {A : Multiset (Fin n)} {r : FP}
    (h : F.SumRuns v A r) {m : Fin n} (hm : m ∈ A) (hv : v m = .nan) : r = .nan := by
  induction h with
  | one i =>
    rw [Multiset.mem_singleton] at hm
    rw [← hm, hv]
  | add _ _ h3 ih1 ih2 =>
    rcases Multiset.mem_add.1 hm with h | h
    · rw [ih1 h, nan_add] at h3; exact h3.nan
    · rw [ih2 h, add_nan] at h3; exact h3.nan

/-- Conditions on the input. -/
structure Input.Collapsed {n : ℕ} (u : ℝ) (X : Input n) (i j k : Fin n) : Prop where
  t : X.Triple i j k
  d : ∀ a b, X.Pair a b → a ∈ [i, j, k] → b ∈ [i, j, k] → X.d a b = √((2 : ℝ) ^ (-23 : ℤ))
  Q : ∀ i, In .nn (-20) 5 (X.Q i)
  a1 : In .nn (-20) 1 X.a1 ∧ binary32.Num X.a1
  a2 : In .pos 0 5 X.a2 ∧ binary32.Num X.a2
  cut3 : In .pos 0 20 X.cut3 ∧ binary32.Num X.cut3
  ε : X.ε = (2 : ℝ) ^ (-23 : ℤ)
  alp : 14 ≤ X.alp
  kd : 3 / 4 ≤ (1 - u) ^ X.kd
  kQ : 1 / 2 ≤ (1 - u) ^ X.kQ

namespace Input
variable {n : ℕ} {u : ℝ} {X : Input n} {i j k : Fin n}

section
variable (hu : binary32.unit ≤ u) (hu0 : 0 ≤ u) (hu1 : 10 * u ≤ 1) (h : X.Collapsed u i j k)
include h

theorem near32 {a b : Fin n} (hp : X.Pair a b) (ha : a ∈ [i, j, k]) (hb : b ∈ [i, j, k]) :
    Sound binary32 u (X.dist a b) (In .pos (-12) (-11)) := by
  intro r hr
  unfold dist at hr
  cases hr with
  | @inp _ z _ hn hz =>
    refine ⟨z, rfl, hz, .inp hn, ?_⟩
    obtain ⟨h1, h2⟩ := hn
    rw [h.d a b hp ha hb] at h1 h2
    have hk := h.kd
    obtain ⟨c, hc⟩ : ∃ c, c = (1 - u) ^ X.kd := ⟨_, rfl⟩
    rw [← hc] at h1 h2 hk
    obtain ⟨s, hs⟩ : ∃ s : ℝ, s = √((2 : ℝ) ^ (-23 : ℤ)) := ⟨_, rfl⟩
    rw [← hs] at h1 h2
    have s0 : 0 ≤ s := by rw [hs]; exact Real.sqrt_nonneg _
    have hss : s ^ 2 = (2 : ℝ) ^ (-23 : ℤ) := by rw [hs]; exact Real.sq_sqrt (two_zpow_pos _).le
    have lo : (7 / 5 : ℝ) * (2 : ℝ) ^ (-12 : ℤ) ≤ s := by
      refine abs_le_of_sq_le_sq' ?_ s0 |>.2
      rw [hss, mul_pow]; norm_num
    have hi : s ≤ (71 / 50 : ℝ) * (2 : ℝ) ^ (-12 : ℤ) := by
      refine abs_le_of_sq_le_sq' ?_ (by positivity) |>.2
      rw [hss, mul_pow]; norm_num
    have z0 : 0 ≤ z := le_trans (mul_nonneg (by linarith) s0) h1
    have e : (2 : ℝ) ^ (-11 : ℤ) = 2 * (2 : ℝ) ^ (-12 : ℤ) := by norm_num
    have p := two_zpow_pos (-12)
    refine in_pos ?_ ?_
    all_goals try rw [e]
    all_goals generalize (2 : ℝ) ^ (-12 : ℤ) = t at *
    · have := mul_le_mul_of_nonneg_right hk s0
      linarith
    · have := mul_le_mul_of_nonneg_right hk z0
      linarith

include hu0 hu1
theorem d232 {a b : Fin n} (hp : X.Pair a b) (ha : a ∈ [i, j, k]) (hb : b ∈ [i, j, k]) :
    Sound binary32 u (X.d2 a b) (In .pos (-25) (-21)) :=
  (Sound.npow ok32 hu0 (by linarith) (k := 2) (by decide) (by decide) (near32 h hp ha hb)
    (range32 (by norm_num) (by norm_num) (by norm_num))).mono (by norm_num) (by norm_num)

include hu
theorem r232 : Sound binary32 u (X.r2 i j k) (In .pos (-75) (-63)) := by
  have p1 : X.Pair i j := ⟨h.t.1, h.t.2.1, h.t.2.2.2.1⟩
  have p2 : X.Pair i k := ⟨h.t.1, h.t.2.2.1, h.t.2.2.2.2.1⟩
  have p3 : X.Pair j k := ⟨h.t.2.1, h.t.2.2.1, h.t.2.2.2.2.2⟩
  exact (Sound.mul ok32 hu (Sound.mul ok32 hu (d232 hu0 hu1 h p1 (by simp) (by simp))
    (d232 hu0 hu1 h p2 (by simp) (by simp)) (range32 (by norm_num) (by norm_num) (by norm_num)))
    (d232 hu0 hu1 h p3 (by simp) (by simp)) (range32 (by norm_num) (by norm_num) (by norm_num))).mono
    (by norm_num) (by norm_num)

theorem r132 : Sound binary32 u (X.r1 i j k) (In .pos (-38) (-31)) :=
  Sound.sqrt ok32 hu (by decide) (r232 hu hu0 hu1 h) (by norm_num) (by norm_num)
    (range32 (by norm_num) (by norm_num) (by norm_num))

theorem r332 : Sound binary32 u (X.r3 i j k) (In .pos (-113) (-94)) :=
  Sound.mul ok32 hu (r132 hu hu0 hu1 h) (r232 hu hu0 hu1 h)
    (range32 (by norm_num) (by norm_num) (by norm_num))

/-- Underflow. -/
theorem r532 {r : FP} (hr : (X.r5 i j k).Runs binary32 u r) : r = .fin 0 := by
  unfold r5 at hr
  cases hr with
  | mul h1 h2 h3 =>
    obtain ⟨x, rfl, -, -, hx⟩ := r232 hu hu0 hu1 h _ h1
    obtain ⟨y, rfl, -, -, hy⟩ := r332 hu hu0 hu1 h _ h2
    have x0 : 0 < x := hx.1
    have y0 : 0 < y := hy.1
    have hxy : x * y ≤ (2 : ℝ) ^ (-157 : ℤ) := by
      calc x * y ≤ (2 : ℝ) ^ (-63 : ℤ) * (2 : ℝ) ^ (-94 : ℤ) :=
            mul_le_mul hx.le hy.le y0.le (two_zpow_pos _).le
        _ = _ := by rw [← zpow_add₀ two_ne_zero]; norm_num
    have hb : |x * y| ≤ binary32.big := by
      rw [abs_of_pos (mul_pos x0 y0)]
      exact hxy.trans (ok32.zpow_le_big (by decide))
    obtain ⟨z, rfl, hz⟩ := (h3.1 _ rfl).1 hb
    have h0 := hz.2 0 ok32.num_zero
    rw [zero_sub, abs_neg, abs_of_pos (mul_pos x0 y0)] at h0
    have g : OnGrid (-149) z := hz.1.onGrid_min
    rcases g.abs_ge with e | e
    · rw [e]
    · exfalso
      have t := abs_sub_abs_le_abs_sub z (x * y)
      rw [abs_of_pos (mul_pos x0 y0)] at t
      have : (2 : ℝ) ^ (-149 : ℤ) = 256 * (2 : ℝ) ^ (-157 : ℤ) := by norm_num
      linarith [two_zpow_pos (-157)]

omit hu0 hu1 in
theorem radius32 (a b : Fin n) : Sound binary32 u (X.radius a b) (In .pos 0 9) := by
  have c3 : Sound binary32 u (.const 3) (In .pos 1 2) :=
    .const (num32 3 0 (by norm_num) (by norm_num) (by norm_num) (by norm_num))
      (in_pos (by norm_num) (by norm_num))
  have q : ∀ i, Sound binary32 u (.inp (X.Q i) X.kQ) (In .nn (-21) 6) := fun i =>
    Sound.inp (by decide) (h.Q i) h.kQ
  have m1 := Sound.mul ok32 hu (Sound.mul ok32 hu c3 (q a) (range32 (by norm_num) (by norm_num) (by norm_num)))
    (q b) (range32 (by norm_num) (by norm_num) (by norm_num))
  have ne : binary32.Num X.ε := by
    rw [h.ε]; exact ok32.num_zpow (by decide) (by decide)
  have ie : In .pos (-23) (-23) X.ε := by rw [h.ε]; exact in_pos le_rfl le_rfl
  have c := Sound.clampMin m1 ne ie (U := 14) (by norm_num) (by norm_num)
  have s := Sound.sqrt ok32 hu (m := -12) (M := 7) (by decide) c (by norm_num) (by norm_num)
    (range32 (by norm_num) (by norm_num) (by norm_num))
  have a1 : Sound binary32 u (.const X.a1) (In .nn (-20) 1) := .const h.a1.2 h.a1.1
  have a2 : Sound binary32 u (.const X.a2) (In .pos 0 5) := .const h.a2.2 h.a2.1
  have m2 := Sound.mul ok32 hu a1 s (range32 (by norm_num) (by norm_num) (by norm_num))
  exact Sound.add_nn_pos ok32 hu (by decide) m2 a2 (U := 8) (by norm_num) (by norm_num)
    (range32 (by norm_num) (by norm_num) (by norm_num))

omit hu hu0 hu1 h in
theorem one32 : Sound binary32 u (.const 1) (In .pos 0 0) :=
  .const (num32 1 0 (by norm_num) (by norm_num) (by norm_num) (by norm_num))
    (in_pos (by norm_num) (by norm_num))

/-- Overflow of the power, so the damping function is zero. -/
theorem fdamp32 {r : FP} (hr : (X.fdamp i j k).Runs binary32 u r) : r = .fin 0 := by
  have r0 := Sound.mul ok32 hu (Sound.mul ok32 hu (radius32 hu h i j) (radius32 hu h i k)
    (range32 (by norm_num) (by norm_num) (by norm_num))) (radius32 hu h j k)
    (range32 (by norm_num) (by norm_num) (by norm_num))
  have q := Sound.div ok32 hu r0 (r132 hu hu0 hu1 h) (range32 (by norm_num) (by norm_num) (by norm_num))
  have t := Sound.mul ok32 hu one32 q (range32 (by norm_num) (by norm_num) (by norm_num))
  have t' := t.mono (m' := 31) (M' := 65) (by norm_num) (by norm_num)
  unfold fdamp at hr
  cases hr with
  | div h1 h2 h3 =>
    cases h1
    cases h2 with
    | add h4 h5 h6 =>
      cases h4
      cases h5 with
      | @mul _ _ r7 r8 r9 h7 h8 h9 =>
        cases h7
        cases h8 with
        | @rpow _ _ _ y _ s _ h10 hy h11 =>
          obtain ⟨x, rfl, -, -, hx⟩ := t' _ h10
          have x0 : 0 < x := hx.1
          have e : (FP.fin x).tpow (.fin y) = .fin (x ^ y) := by
            show (if 0 < x then FP.fin (id (x ^ y)) else _) = _
            rw [if_pos x0]; rfl
          rw [e] at h11
          have hy' : (42 / 10 : ℝ) ≤ y := by
            have h0 : (14 : ℝ) / 3 ≤ X.alp / 3 := by linarith [h.alp]
            unfold Fl at hy
            rw [abs_of_nonneg (by linarith : 0 ≤ X.alp / 3)] at hy
            have := (abs_le.1 hy).1
            push_cast at this
            nlinarith
          have big : (2 : ℝ) ^ (130 : ℤ) ≤ x ^ y := by
            have e1 : (2 : ℝ) ^ (130 : ℤ) = (2 : ℝ) ^ (130 : ℝ) := by
              rw [← Real.rpow_intCast]; norm_num
            have e2 : (2 : ℝ) ^ (31 : ℤ) = (2 : ℝ) ^ (31 : ℝ) := by
              rw [← Real.rpow_intCast]; norm_num
            have hx31 := hx.ge
            rw [e2] at hx31
            rw [e1]
            calc (2 : ℝ) ^ (130 : ℝ) ≤ (2 : ℝ) ^ (31 * y : ℝ) :=
                  Real.rpow_le_rpow_of_exponent_le one_le_two (by linarith)
              _ = ((2 : ℝ) ^ (31 : ℝ)) ^ y := Real.rpow_mul two_pos.le _ _
              _ ≤ x ^ y := Real.rpow_le_rpow (by positivity) hx31 (by linarith)
          have hbig : binary32.big < (2 : ℝ) ^ (128 : ℤ) := by
            unfold Fmt.big
            show ((2 : ℝ) ^ 24 - 1) * (2 : ℝ) ^ (104 : ℤ) < (2 : ℝ) ^ (128 : ℤ)
            norm_num
          have e4 : (2 : ℝ) ^ (130 : ℤ) = 4 * (2 : ℝ) ^ (128 : ℤ) := by norm_num
          have p128 := two_zpow_pos 128
          have ht : r8 = FP.pinf := by
            rcases (h11.1 _ rfl).2.2.2.1 (by linarith) with e | ⟨z, -, hz, hfl⟩
            · exact e
            · exfalso
              have := hz.le_big
              unfold Fl at hfl
              rw [abs_of_pos (by linarith : 0 < x ^ y)] at hfl
              have h12 := (abs_le.1 hfl).1
              have h13 := le_abs_self z
              nlinarith
          rw [ht] at h9
          have e5 : (FP.fin 6).mul .pinf = .pinf := by simp [FP.mul]
          rw [e5] at h9
          rw [h9.pinf] at h6
          have e6 : (FP.fin 1).add .pinf = .pinf := rfl
          rw [e6] at h6
          rw [h6.pinf] at h3
          exact ok32.round_zero h3

theorem ang32 {r : FP} (hr : (X.ang i j k).Runs binary32 u r) : NotFin r := by
  have p1 : X.Pair i j := ⟨h.t.1, h.t.2.1, h.t.2.2.2.1⟩
  have p3 : X.Pair j k := ⟨h.t.2.1, h.t.2.2.1, h.t.2.2.2.2.2⟩
  have d1 := d232 hu0 hu1 h p1 (by simp) (by simp)
  have d3 := d232 hu0 hu1 h p3 (by simp) (by simp)
  have c3 : Sound binary32 u (.const X.cut3) (In .pos 0 20) := .const h.cut3.2 h.cut3.1
  have cc := Sound.mul ok32 hu c3 c3 (range32 (by norm_num) (by norm_num) (by norm_num))
  have key : ∀ {e : Ex} {a b : FP}, Sound binary32 u e (In .pos (-25) (-21)) → e.Runs binary32 u a →
      (Ex.mul (.const X.cut3) (.const X.cut3)).Runs binary32 u b → fpLe a b := by
    intro e a b he ha hb
    obtain ⟨x, rfl, -, -, hx⟩ := he _ ha
    obtain ⟨y, rfl, -, -, hy⟩ := cc _ hb
    show x ≤ y
    exact hx.le.trans ((two_zpow_le (by norm_num)).trans hy.ge)
  unfold ang at hr
  cases hr with
  | sel_gt h1 h2 h3 _ => exact absurd (key d1 h1 h2) h3
  | sel_le _ _ _ hr =>
    cases hr with
    | sel_gt h1 h2 h3 _ => exact absurd (key d3 h1 h2) h3
    | sel_le _ _ _ hr =>
      cases hr with
      | sel_gt h1 h2 h3 _ => exact absurd (key d3 h1 h2) h3
      | sel_le _ _ _ hr =>
        cases hr with
        | add h4 h5 h6 =>
          cases h4 with
          | div h7 h8 h9 =>
            rw [r532 hu hu0 hu1 h h8] at h9
            have nf := h9.notFin (div_zero_notFin _)
            have := h6.notFin (add_notFin (nf ▸ div_zero_notFin _))
            rw [this]
            exact add_notFin (nf ▸ div_zero_notFin _)

theorem triple32 {r : FP} (hr : (X.triple i j k).Runs binary32 u r) : r = .nan := by
  unfold triple at hr
  rw [if_pos h.t] at hr
  cases hr with
  | mul h1 h2 h3 =>
    cases h1 with
    | mul h4 h5 h6 =>
      cases h4 with
      | mul h7 h8 h9 =>
        rw [fdamp32 hu hu0 hu1 h h8, mul_zero_nan (ang32 hu hu0 hu1 h h7)] at h9
        rw [h9.nan, nan_mul] at h6
        rw [h6.nan, nan_mul] at h3
        exact h3.nan

theorem energy32 {r : FP} (hr : (X.energy i).Runs binary32 u r) : r = .nan := by
  unfold energy at hr
  cases hr with
  | add h1 h2 h3 =>
    unfold three at h2
    cases h2 with
    | div h4 h5 h6 =>
      cases h4 with
      | @sum _ _ v _ h7 h8 =>
        have hv : v (finProdFinEquiv (j, k)) = .nan := by
          have := h7 (finProdFinEquiv (j, k))
          simp only [Equiv.symm_apply_apply] at this
          exact triple32 hu hu0 hu1 h this
        rw [sumRuns_nan h8 (Finset.mem_univ_val _) hv, nan_div] at h6
        rw [h6.nan, add_nan] at h3
        exact h3.nan

end
end Input

end TadDftd4.Rounded
