import Verif.Props.C19
import Mathlib.Analysis.Calculus.Deriv.Pow

/-!
# C20: `weight_references(with_dgwdcn=True)` and the derivative with respect to the CN

The code returns the negative of the derivative.
-/

set_option linter.unusedSimpArgs false

open scoped Classical

namespace TadDftd4

open Tensor

/-- `2 i w dcn exp(-dcn²)^(i w)` -/
noncomputable def dpowD4 (env : Env) (w cn rcn : ℝ) (i : ℕ) : ℝ :=
  2 * (i : ℝ) * w * (cn - rcn) * powD4 env w cn rcn i

noncomputable def dexpwD4 (env : Env) (T : Tables) (w : ℝ) (Z : ℕ) (cn : ℝ) (r : ℕ) : ℝ :=
  (if T.refc Z r = 1 then dpowD4 env w cn (T.refcn Z r) 1 else 0) +
  (if T.refc Z r = 3 then dpowD4 env w cn (T.refcn Z r) 1 + dpowD4 env w cn (T.refcn Z r) 2 +
    dpowD4 env w cn (T.refcn Z r) 3 else 0)

section
variable {env : Env} {T : Tables} {m : RefModel} {cn q : Tensor ℝ} {n : ℕ} {B : Shape} {w : ℝ}
  {b : Idx} {i k r : ℕ}

namespace D4

section
variable (h : m.Good T n B) (hw : m.wf = scalar w) (hc : cn.Ok (n :: B))

include h hw hc in
theorem dpowT_ok (k : ℕ) : (dpowT env T m cn k).Ok (nref :: n :: B) := by
  have h1 := powT_ok (env := env) h hw hc k
  have h2 := dcn_ok h hc
  constructor <;> simp [dpowT, hw, h1.err, h1.shape, h2.err, h2.shape]

include h hw hc in
theorem dexpw_ok : (dexpw env T m cn).Ok (nref :: n :: B) := by
  have h1 := fun k => dpowT_ok (env := env) h hw hc k
  have h3 := refc_ok h
  constructor <;> simp [dexpw, (h1 _).err, (h1 _).shape, h3.err, h3.shape]

include h hw hc in
theorem dgwRaw_ok : (dgwRaw env T m cn).Ok (nref :: n :: B) := by
  have h1 := dexpw_ok (env := env) h hw hc
  have h2 := expw_ok (env := env) h hw hc
  have h3 := norm_ok (env := env) h hw hc
  constructor <;> simp [dgwRaw, h1.err, h1.shape, h2.err, h2.shape, h3.err, h3.shape,
    sumLastKeep_shape h1.shape]

include h hw hc in
theorem dgw_ok : (dgw env T m cn).Ok (nref :: n :: B) := by
  have h1 := dgwRaw_ok (env := env) h hw hc
  constructor <;> simp [dgw, h1.err, h1.shape]

variable (hb : InB B b) (hi : i < n) (hr : r < nref)

include h hw hc hb hi hr in
theorem dpowT_get (k : ℕ) : (dpowT env T m cn k).get (r :: i :: b) =
    dpowD4 env w (cn.get (i :: b)) (T.refcn (m.numbers.get (i :: b)) r) k := by
  have h1 := powT_ok (env := env) h hw hc k
  have h2 := dcn_ok h hc
  have hin : InB (nref :: n :: B) (r :: i :: b) := ⟨hr, hi, hb⟩
  simp [dpowT, hw, h1.shape, h2.shape, pick_of_InB hin, powT_get h hw hc hb hi hr,
    dcn_get h hc hb hi hr, dpowD4]

include h hw hc hb hi hr in
theorem dexpw_get : (dexpw env T m cn).get (r :: i :: b) =
    dexpwD4 env T w (m.numbers.get (i :: b)) (cn.get (i :: b)) r := by
  have h1 := fun k => dpowT_ok (env := env) h hw hc k
  have h3 := refc_ok h
  have hin : InB (nref :: n :: B) (r :: i :: b) := ⟨hr, hi, hb⟩
  simp only [dexpw, dexpwD4, add_get, where_get, where_shape, map_shape, add_shape, scalar_shape,
    bshape_self, bshape_nil_left, bshape_nil_right, h3.shape, (h1 _).shape, pick_of_InB hin, map_get,
    scalar_get, zero_add, dpowT_get h hw hc hb hi hr]
  exact congrArg₂ (· + ·) (ite_iff Iff.rfl rfl rfl) (ite_iff Iff.rfl rfl rfl)

/-- Normalisation constant of reference `r`. -/
noncomputable def normOf (env : Env) (T : Tables) (w : ℝ) (Z : ℕ) (cn : ℝ) (r : ℕ) : ℝ :=
  if 0 < T.refc Z r then ∑ s ∈ Finset.range nref, expwD4 env T w Z cn s else tiny

include h hw hc hb hi hr in
theorem dgwRaw_get : (dgwRaw env T m cn).get (r :: i :: b) =
    FP.div (FP.sub (.fin (dexpwD4 env T w (m.numbers.get (i :: b)) (cn.get (i :: b)) r))
      (FP.div (.fin (expwD4 env T w (m.numbers.get (i :: b)) (cn.get (i :: b)) r *
        ∑ s ∈ Finset.range nref, dexpwD4 env T w (m.numbers.get (i :: b)) (cn.get (i :: b)) s))
        (.fin (normOf env T w (m.numbers.get (i :: b)) (cn.get (i :: b)) r))))
      (.fin (normOf env T w (m.numbers.get (i :: b)) (cn.get (i :: b)) r)) := by
  have h1 := dexpw_ok (env := env) h hw hc
  have h2 := expw_ok (env := env) h hw hc
  have h3 := norm_ok (env := env) h hw hc
  have hin : InB (nref :: n :: B) (r :: i :: b) := ⟨hr, hi, hb⟩
  have hin' : InB (n :: B) (i :: b) := ⟨hi, hb⟩
  simp only [dgwRaw, map2_get, map2_shape, map_shape, mul_shape, h1.shape, h2.shape, h3.shape,
    sumLastKeep_shape h1.shape, bshape_self, bshape_cons, bdim_one_right, bdim_self,
    pick_of_InB hin, map_get, mul_get, pick_one, pick_of_InB hin', sumLastKeep_get h1.shape,
    List.tail_cons, dexpw_get h hw hc hb hi hr, expw_get h hw hc hb hi hr,
    norm_get h hw hc hb hi hr]
  rw [Finset.sum_congr rfl fun s hs => dexpw_get h hw hc hb hi (Finset.mem_range.1 hs)]
  rfl

end
end D4

/-! ### Derivatives, no underflow -/

theorem powD4_hasDerivAt (hfl : env.fl = id) (w rcn : ℝ) (k : ℕ) (x : ℝ) :
    HasDerivAt (fun x => powD4 env w x rcn k) (-dpowD4 env w x rcn k) x := by
  have e : (fun x => powD4 env w x rcn k) = fun x => Real.exp (-(k * w * (x - rcn) ^ 2)) := by
    funext x; exact powD4_id hfl w x rcn k
  rw [e, dpowD4, powD4_id hfl]
  have h1 : HasDerivAt (fun x : ℝ => -(k * w * (x - rcn) ^ 2)) (-(k * w * (2 * (x - rcn)))) x := by
    have := ((((hasDerivAt_id x).sub_const rcn).pow 2).const_mul (k * w)).neg
    refine this.congr_deriv ?_
    simp
  exact h1.exp.congr_deriv (by ring)

theorem expwD4_hasDerivAt (hfl : env.fl = id) {Z r : ℕ}
    (h : T.refc Z r = 0 ∨ T.refc Z r = 1 ∨ T.refc Z r = 3) (w x : ℝ) :
    HasDerivAt (fun x => expwD4 env T w Z x r) (-dexpwD4 env T w Z x r) x := by
  have hp := fun k => powD4_hasDerivAt hfl w (T.refcn Z r) k x
  unfold expwD4 dexpwD4
  rcases h with h | h | h
  · simpa [h] using hasDerivAt_const x (0 : ℝ)
  · simpa [h] using hp 1
  · simp only [h, show (3 : ℕ) ≠ 1 by norm_num, if_true, if_false, zero_add,
      show (0 : ℕ) < 3 by norm_num]
    exact (((hp 1).add (hp 2)).add (hp 3)).congr_deriv (by ring)

theorem expwD4_pos (hfl : env.fl = id) {Z r : ℕ}
    (h : T.refc Z r = 0 ∨ T.refc Z r = 1 ∨ T.refc Z r = 3) (hc : 0 < T.refc Z r) (w x : ℝ) :
    0 < expwD4 env T w Z x r := by
  have hp : ∀ k, 0 < powD4 env w x (T.refcn Z r) k := fun k => by
    rw [powD4_id hfl]; exact Real.exp_pos _
  unfold expwD4
  rcases h with h | h | h
  · omega
  · simpa [h] using hp 1
  · simpa [h] using add_pos (add_pos (hp 1) (hp 2)) (hp 3)

/-- Size of the derivative of a Gaussian sum. -/
theorem dexpwD4_abs_le (hfl : env.fl = id) {Z r : ℕ}
    (h : T.refc Z r = 0 ∨ T.refc Z r = 1 ∨ T.refc Z r = 3) (w x : ℝ) :
    |dexpwD4 env T w Z x r| ≤ 6 * |w| * |x - T.refcn Z r| * expwD4 env T w Z x r := by
  have hp : ∀ k, 0 < powD4 env w x (T.refcn Z r) k := fun k => by
    rw [powD4_id hfl]; exact Real.exp_pos _
  have hd : ∀ k : ℕ, k ≤ 3 → |dpowD4 env w x (T.refcn Z r) k| ≤
      6 * |w| * |x - T.refcn Z r| * powD4 env w x (T.refcn Z r) k := by
    intro k hk
    have hk' : (k : ℝ) ≤ 3 := by exact_mod_cast hk
    unfold dpowD4
    rw [abs_mul, abs_mul, abs_mul, abs_mul, abs_of_pos (hp k), Nat.abs_cast, abs_two]
    have := mul_nonneg (mul_nonneg (abs_nonneg w) (abs_nonneg (x - T.refcn Z r))) (hp k).le
    nlinarith
  unfold dexpwD4 expwD4
  rcases h with h | h | h
  · simp [h]
  · simpa [h] using hd 1 (by norm_num)
  · simp only [h, show (3 : ℕ) ≠ 1 by norm_num, if_true, if_false, zero_add,
      show (0 : ℕ) < 3 by norm_num]
    refine (abs_add_three _ _ _).trans ?_
    have h1 := hd 1 (by norm_num)
    have h2 := hd 2 (by norm_num)
    have h3 := hd 3 (by norm_num)
    linarith

theorem gwOf_div (hfl : env.fl = id) {Z : ℕ}
    (h : ∀ r < nref, T.refc Z r = 0 ∨ T.refc Z r = 1 ∨ T.refc Z r = 3) (w x : ℝ) {r : ℕ}
    (hr : r < nref) : (gwOf env T Z (expwD4 env T w Z x) r).toReal =
      expwD4 env T w Z x r / ∑ s ∈ Finset.range nref, expwD4 env T w Z x s := by
  have hS : ∀ r < nref, expwD4 env T w Z x r ≤ ∑ s ∈ Finset.range nref, expwD4 env T w Z x s :=
    fun r hr => Finset.single_le_sum (fun s _ => expwD4_nonneg w Z x s) (Finset.mem_range.2 hr)
  by_cases hc : 0 < T.refc Z r
  · have hpos := lt_of_lt_of_le (expwD4_pos hfl (h r hr) hc w x) (hS r hr)
    have ht : gwTempOf T Z (expwD4 env T w Z x) r =
        .fin (expwD4 env T w Z x r / ∑ s ∈ Finset.range nref, expwD4 env T w Z x s) := by
      simp [gwTempOf, hc, FP.div, hpos.ne']
    unfold gwOf
    rw [ht, if_neg]
    · rfl
    · simp only [FP.isExceptional, not_lt]
      exact ((div_le_one hpos).2 (hS r hr)).trans env.one_le_fmax
  · have h0 : T.refc Z r = 0 := by omega
    rw [gwOf_pad h0 (expwD4_missing h0), expwD4_missing h0, zero_div]
    rfl

/-- Derivative of the normalised weights and the code's value for it. -/
theorem gw_hasDerivAt (hfl : env.fl = id) {Z : ℕ}
    (h : ∀ r < nref, T.refc Z r = 0 ∨ T.refc Z r = 1 ∨ T.refc Z r = 3) (w x : ℝ) {r : ℕ}
    (hr : r < nref) (hmax : ∀ s < nref, 12 * |w| * |x - T.refcn Z s| ≤ env.fmax) :
    ∃ d, FP.div (FP.sub (.fin (dexpwD4 env T w Z x r))
        (FP.div (.fin (expwD4 env T w Z x r * ∑ s ∈ Finset.range nref, dexpwD4 env T w Z x s))
          (.fin (D4.normOf env T w Z x r)))) (.fin (D4.normOf env T w Z x r)) = .fin d ∧
      d ≤ env.fmax ∧
      HasDerivAt (fun x => (gwOf env T Z (expwD4 env T w Z x) r).toReal) (-d) x := by
  have e : (fun x => (gwOf env T Z (expwD4 env T w Z x) r).toReal) =
      fun x => expwD4 env T w Z x r / ∑ s ∈ Finset.range nref, expwD4 env T w Z x s :=
    funext fun x => gwOf_div hfl h w x hr
  rw [e]
  by_cases hc : 0 < T.refc Z r
  · set S := ∑ s ∈ Finset.range nref, expwD4 env T w Z x s with hS
    set S' := ∑ s ∈ Finset.range nref, dexpwD4 env T w Z x s with hS'
    have hle : expwD4 env T w Z x r ≤ S :=
      Finset.single_le_sum (fun s _ => expwD4_nonneg w Z x s) (Finset.mem_range.2 hr)
    have hE := expwD4_pos hfl (h r hr) hc w x
    have hpos : 0 < S := lt_of_lt_of_le hE hle
    refine ⟨(dexpwD4 env T w Z x r - expwD4 env T w Z x r * S' / S) / S, ?_, ?_, ?_⟩
    · simp only [D4.normOf, hc, if_true, ← hS, FP.div, ne_eq, hpos.ne', not_false_eq_true, FP.sub,
        FP.neg, FP.add]
      rw [sub_eq_add_neg]
    · have habs : |S'| ≤ env.fmax / 2 * S := by
        refine (Finset.abs_sum_le_sum_abs _ _).trans ?_
        rw [hS, Finset.mul_sum]
        refine Finset.sum_le_sum fun s hs => ?_
        have hs := Finset.mem_range.1 hs
        refine (dexpwD4_abs_le hfl (h s hs) w x).trans
          (mul_le_mul_of_nonneg_right ?_ (expwD4_nonneg _ _ _ _))
        linarith [hmax s hs]
      have h1 : |dexpwD4 env T w Z x r| ≤ env.fmax / 2 * expwD4 env T w Z x r :=
        (dexpwD4_abs_le hfl (h r hr) w x).trans
          (mul_le_mul_of_nonneg_right (by linarith [hmax r hr]) hE.le)
      have h2 : |expwD4 env T w Z x r * S' / S| ≤ env.fmax / 2 * expwD4 env T w Z x r := by
        rw [abs_div, abs_mul, abs_of_pos hE, abs_of_pos hpos, div_le_iff₀ hpos]
        nlinarith
      rw [div_le_iff₀ hpos]
      have h3 := (abs_le.1 h1).2
      have h4 := (abs_le.1 h2).1
      have h5 : env.fmax * expwD4 env T w Z x r ≤ env.fmax * S :=
        mul_le_mul_of_nonneg_left hle (by linarith [env.one_le_fmax])
      linarith
    · have hnum := expwD4_hasDerivAt hfl (h r hr) w x
      have hden : HasDerivAt (fun x => ∑ s ∈ Finset.range nref, expwD4 env T w Z x s) (-S') x := by
        have := HasDerivAt.fun_sum (u := Finset.range nref) (fun s hs =>
          expwD4_hasDerivAt hfl (h s (Finset.mem_range.1 hs)) w x)
        exact this.congr_deriv (by rw [hS', Finset.sum_neg_distrib])
      refine (hnum.div hden hpos.ne').congr_deriv ?_
      rw [← hS]
      field_simp
      ring
  · have h0 : T.refc Z r = 0 := by omega
    have hd : dexpwD4 env T w Z x r = 0 := by simp [dexpwD4, h0]
    refine ⟨0, ?_, by linarith [env.one_le_fmax], ?_⟩
    · have ht : tiny ≠ 0 := by unfold tiny; positivity
      rw [hd, expwD4_missing h0, zero_mul, D4.normOf, if_neg hc]
      simp [FP.div, ht, FP.sub, FP.neg, FP.add]
    · simp only [expwD4_missing h0, zero_div, neg_zero]
      exact hasDerivAt_const _ _

/-- Proved: the second output is the NEGATIVE of the derivative of the weights of atom `i` with
respect to its coordination number (no underflow, derivative within the floating point range). -/
theorem C20_negative_partial (hfl : env.fl = id) (h : m.Good T n B) (hw : m.wf = scalar w)
    (hT : ∀ Z < T.nZ, ∀ r < nref, T.refc Z r = 0 ∨ T.refc Z r = 1 ∨ T.refc Z r = 3)
    (hc : cn.Ok (n :: B)) (hq : q.Ok (n :: B)) (hb : InB B b) (hi : i < n) (hr : r < nref)
    (hmax : ∀ s < nref, 12 * |w| * |cn.get (i :: b) - T.refcn (m.numbers.get (i :: b)) s| ≤ env.fmax) :
    ∃ D, D4.weightsD env T m (some cn) (some q) false true =
        [D4.weights env T m (some cn) (some q), D] ∧ D.Ok (nref :: n :: B) ∧
      HasDerivAt (fun x => (D4.weights env T m (some (cn.setAt (i :: b) x)) (some q)).get
        (r :: i :: b)) (-D.get (r :: i :: b)) (cn.get (i :: b)) := by
  have h1 := D4.dgw_ok (env := env) h hw hc
  have h1' := D4.dgwRaw_ok (env := env) h hw hc
  have h2 := D4.zeta_ok (env := env) h hq
  have hin : InB (nref :: n :: B) (r :: i :: b) := ⟨hr, hi, hb⟩
  have hlt : m.numbers.get (i :: b) < T.nZ := h.lt _ (by rw [h.shape]; exact ⟨hi, hb⟩)
  refine ⟨D4.zeta env T m q * (D4.dgw env T m cn).map FP.toReal, rfl,
    ⟨by simp [h1.err, h1.shape, h2.err, h2.shape], by simp [h1.shape, h2.shape]⟩, ?_⟩
  obtain ⟨d, hd, hle, hder⟩ := gw_hasDerivAt hfl (hT _ hlt) w (cn.get (i :: b)) hr hmax
  have e1 : ∀ x, (D4.weights env T m (some (cn.setAt (i :: b) x)) (some q)).get (r :: i :: b) =
      zetaAt env T m.ga m.gc m.refCharges (m.numbers.get (i :: b)) (q.get (i :: b)) r *
        (gwOf env T (m.numbers.get (i :: b)) (expwD4 env T w (m.numbers.get (i :: b)) x)
          r).toReal := by
    intro x
    rw [D4.weights_get h hw (Or.inr ⟨_, rfl, hc.setAt _ x, rfl⟩) (Or.inr ⟨q, rfl, hq, rfl⟩) hb hi hr,
      setAt_same]
    rfl
  have e2 : (D4.dgw env T m cn).get (r :: i :: b) = .fin d := by
    have hraw : (D4.dgwRaw env T m cn).get (r :: i :: b) = .fin d :=
      (D4.dgwRaw_get h hw hc hb hi hr).trans hd
    rw [D4.dgw, where_get_of_neg]
    · rw [h1'.shape, pick_of_InB hin, hraw]
    · rw [map_shape, h1'.shape, pick_of_InB hin, map_get, hraw]
      simpa [FP.isExceptional] using hle
  have e3 : (D4.zeta env T m q * (D4.dgw env T m cn).map FP.toReal).get (r :: i :: b) =
      zetaAt env T m.ga m.gc m.refCharges (m.numbers.get (i :: b)) (q.get (i :: b)) r * d := by
    simp only [mul_get, map_get, map_shape, h1.shape, h2.shape, pick_of_InB hin, e2,
      D4.zeta_get h hq hb hi hr]
    rfl
  simp only [e1]
  rw [e3, ← mul_neg]
  exact hder.const_mul _

/-- The D4S model refuses to return the derivative. -/
theorem weightsD_d4s (co qo : Option (Tensor ℝ)) (dq : Bool) :
    D4S.weightsD env T m co qo dq true = [Tensor.fail .notImplemented] := rfl

end

/-! ## The full statement is false -/

/-- The additional output of `weight_references(with_dgwdcn=True)` is the derivative of the weights
with respect to the coordination number. -/
def DgwdcnIsDerivative (env : Env) (T : Tables) : Prop :=
  ∀ (m : RefModel) (n : ℕ) (w : ℝ) (cn q : Tensor ℝ) (i r : ℕ), m.Good T n [] → m.wf = scalar w →
    cn.Ok [n] → q.Ok [n] → i < n → r < nref →
    ∀ D, D4.weightsD env T m (some cn) (some q) false true =
        [D4.weights env T m (some cn) (some q), D] →
      HasDerivAt (fun x => (D4.weights env T m (some (cn.setAt [i] x)) (some q)).get [r, i])
        (D.get [r, i]) (cn.get [i])

/-- One hydrogen atom. -/
def hNumbers : Tensor ℕ := ⟨none, [1], fun _ => 1⟩

/-- False for the shipped tables: a hydrogen atom at the CN of its second reference. -/
theorem C20_derivative_false {env : Env} {nExt : ℕ} {gam zeff : ℕ → ℝ} {vdw : ℕ → ℕ → ℝ}
    (hE : ExtTables nExt gam zeff) (hfl : env.fl = id) (hmax : 1000 ≤ env.fmax) :
    ¬ DgwdcnIsDerivative env (shipped nExt gam zeff vdw) := by
  intro hall
  set T := shipped nExt gam zeff vdw with hT
  have hP : T.Physical "eeq" := shipped_physical hE (Or.inl rfl)
  set m := mkModel env T .d4 hNumbers with hm
  have hgood : m.Good T 1 [] := ⟨⟨rfl, rfl⟩, shipped_fits hE, Or.inl rfl, fun i _ => by
    show 1 < 104; norm_num⟩
  set c : ℝ := T.refcn 1 1 with hc
  have hcv : c = 89422436546040 / 10 ^ 14 := by
    have : at2 Data.refcn 1 1 = 89422436546040 := by decide +kernel
    show ((at2 Data.refcn 1 1 : ℕ) : ℝ) / 10 ^ 14 = _
    rw [this]; norm_num
  have hc0 : ∀ s < nref, s ≠ 1 → T.refcn 1 s = 0 := by
    intro s hs hs1
    have hs7 : s < 7 := hs
    have : at2 Data.refcn 1 s = 0 := by
      interval_cases s <;> first | exact absurd rfl hs1 | decide +kernel
    show ((at2 Data.refcn 1 s : ℕ) : ℝ) / 10 ^ 14 = 0
    rw [this]; norm_num
  have hbound : ∀ s < nref, 12 * |(6 : ℝ)| * |c - T.refcn 1 s| ≤ env.fmax := by
    intro s hs
    by_cases h1 : s = 1
    · rw [h1, ← hc, sub_self]; norm_num; linarith
    · rw [hc0 s hs h1, hcv]
      refine le_trans ?_ hmax
      rw [abs_of_pos (by norm_num), abs_of_pos (by norm_num)]
      norm_num
  obtain ⟨D, hD, -, hder⟩ := C20_negative_partial (env := env) (w := 6) (i := 0) (b := []) (r := 1)
    (cn := full [1] c) (q := full [1] 0) hfl hgood rfl hP.refc ⟨rfl, rfl⟩ ⟨rfl, rfl⟩ InB_nil
    (by norm_num) (by norm_num) hbound
  have h2 := hall m 1 6 (full [1] c) (full [1] 0) 0 1 hgood rfl ⟨rfl, rfl⟩ ⟨rfl, rfl⟩ (by norm_num)
    (by norm_num) D hD
  have huniq := hder.unique h2
  have hzero : D.get [1, 0] = 0 := by linarith
  -- the derivative is not zero
  have hD' : D = D4.zeta env T m (full [1] 0) * (D4.dgw env T m (full [1] c)).map FP.toReal := by
    have : [D4.weights env T m (some (full [1] c)) (some (full [1] 0)),
        D4.zeta env T m (full [1] 0) * (D4.dgw env T m (full [1] c)).map FP.toReal] =
        [D4.weights env T m (some (full [1] c)) (some (full [1] 0)), D] := hD
    injection this with _ h
    injection h with h _
    exact h.symm
  have hcOk : (full [1] c).Ok [1] := ⟨rfl, rfl⟩
  have hqOk : (full [1] (0 : ℝ)).Ok [1] := ⟨rfl, rfl⟩
  have hin : InB [nref, 1] [1, 0] := ⟨by norm_num, by norm_num, InB_nil⟩
  have g1 := D4.dgw_ok (env := env) (w := 6) hgood rfl hcOk
  have g1' := D4.dgwRaw_ok (env := env) (w := 6) hgood rfl hcOk
  have g2 := D4.zeta_ok (env := env) hgood hqOk
  have hr1 : T.refc 1 1 = 1 := by show at2 Data.refc 1 1 = 1; decide +kernel
  have hr0 : T.refc 1 0 = 3 := by show at2 Data.refc 1 0 = 3; decide +kernel
  obtain ⟨d, hd, hle, hd2⟩ := gw_hasDerivAt hfl (hP.refc 1 (show 1 < 104 by norm_num)) 6 c
    (show 1 < nref by norm_num) hbound
  have hraw : (D4.dgwRaw env T m (full [1] c)).get [1, 0] = .fin d :=
    (D4.dgwRaw_get (w := 6) (b := []) hgood rfl hcOk InB_nil (by norm_num) (by norm_num)).trans hd
  have e2 : (D4.dgw env T m (full [1] c)).get [1, 0] = .fin d := by
    rw [D4.dgw, where_get_of_neg]
    · rw [g1'.shape, pick_of_InB hin, hraw]
    · rw [map_shape, g1'.shape, pick_of_InB hin, map_get, hraw]
      simpa [FP.isExceptional] using hle
  have e3 : D.get [1, 0] =
      zetaAt env T m.ga m.gc m.refCharges 1 0 1 * d := by
    rw [hD']
    simp only [mul_get, map_get, map_shape, g1.shape, g2.shape, pick_of_InB hin, e2,
      D4.zeta_get (b := []) (i := 0) (r := 1) hgood hqOk InB_nil (by norm_num) (by norm_num)]
    rfl
  have hz : 0 < zetaAt env T m.ga m.gc m.refCharges 1 0 1 := by
    have hgc : 0 < m.gc := by show (0 : ℝ) < 2; norm_num
    have hpos : 0 < T.refc 1 1 := by rw [hr1]; norm_num
    have hP' : T.Physical m.refCharges := hP
    rw [zetaAt, if_pos hpos, zetaF_spec (mul_pos (hP.gam 1 (show 1 < 104 by norm_num) 1
      (by norm_num) hpos) hgc) (hP'.qref 1 (show 1 < 104 by norm_num) 1 (by norm_num) hpos)]
    show 0 < Spec.zeta _ _ _ _ _
    unfold Spec.zeta
    split_ifs <;> exact Real.exp_pos _
  have hd0 : d = 0 := by
    rw [hzero] at e3
    rcases mul_eq_zero.1 e3.symm with h | h
    · exact absurd h hz.ne'
    · exact h
  -- explicit value of d
  have hE1 : 0 < expwD4 env T 6 1 c 1 := expwD4_pos hfl (Or.inr (Or.inl hr1)) (by omega) 6 c
  have hd1 : dexpwD4 env T 6 1 c 1 = 0 := by
    simp [dexpwD4, hr1, dpowD4, hc]
  have hS' : 0 < ∑ s ∈ Finset.range nref, dexpwD4 env T 6 1 c s := by
    have hpow : ∀ k, 0 < powD4 env 6 c (T.refcn 1 0) k := fun k => by
      rw [powD4_id hfl]; exact Real.exp_pos _
    have hcc : 0 < c - T.refcn 1 0 := by
      rw [hc0 0 (by norm_num) (by norm_num), hcv]; norm_num
    have h0 : 0 < dexpwD4 env T 6 1 c 0 := by
      simp only [dexpwD4, hr0, dpowD4, show (3 : ℕ) ≠ 1 by norm_num, if_true, if_false, zero_add]
      have := hpow 1
      have := hpow 2
      have := hpow 3
      positivity
    have hother : ∀ s ∈ Finset.range nref, 0 ≤ dexpwD4 env T 6 1 c s := by
      intro s hs
      have hs := Finset.mem_range.1 hs
      by_cases h1 : s = 1
      · rw [h1, hd1]
      · have hpow : ∀ k, 0 < powD4 env 6 c (T.refcn 1 s) k := fun k => by
          rw [powD4_id hfl]; exact Real.exp_pos _
        have hcc : 0 ≤ c - T.refcn 1 s := by rw [hc0 s hs h1, hcv]; norm_num
        have h1 := (hpow 1).le
        have h2 := (hpow 2).le
        have h3 := (hpow 3).le
        unfold dexpwD4 dpowD4
        split_ifs <;> positivity
    exact lt_of_lt_of_le h0 (Finset.single_le_sum hother (Finset.mem_range.2 (by norm_num)))
  have hS : 0 < ∑ s ∈ Finset.range nref, expwD4 env T 6 1 c s :=
    lt_of_lt_of_le hE1 (Finset.single_le_sum (fun s _ => expwD4_nonneg 6 1 c s)
      (Finset.mem_range.2 (show 1 < nref by norm_num)))
  rw [D4.normOf, if_pos (by omega), hd1, hd0] at hd
  simp only [FP.div, ne_eq, hS.ne', not_false_eq_true, if_true, FP.sub, FP.neg, FP.add] at hd
  injection hd with hd
  have := div_pos (mul_pos hE1 hS') hS
  have := div_pos this hS
  rw [zero_add, neg_div] at hd
  linarith

example : ¬ DgwdcnIsDerivative Demo.env Demo.T :=
  C20_derivative_false Demo.extTables rfl (by
    show (1000 : ℝ) ≤ 10 ^ 308
    calc (1000 : ℝ) = 10 ^ 3 := by norm_num
      _ ≤ 10 ^ 308 := pow_le_pow_right₀ (by norm_num) (by norm_num))

/-- Carbon with coordination number 3. -/
example := C20_negative_partial (env := Demo.env) (T := Demo.T) (w := 6) (i := 0) (b := []) (r := 2)
  (m := mkModel Demo.env Demo.T .d4 (⟨none, [2], fun _ => 6⟩ : Tensor ℕ)) (n := 2) (B := [])
  (cn := full [2] 3) (q := full [2] 0) rfl
  ⟨⟨rfl, rfl⟩, Demo.fits, Or.inl rfl, fun _ _ => show 6 < 104 by norm_num⟩ rfl Demo.physical.refc
  ⟨rfl, rfl⟩ ⟨rfl, rfl⟩ InB_nil (by norm_num) (by norm_num) (fun s hs => by
    have hn : at2 Data.refcn 6 s ≤ 10 ^ 15 := by
      have h : s < 7 := hs
      interval_cases s <;> decide +kernel
    have h1 : ((at2 Data.refcn 6 s : ℕ) : ℝ) ≤ 10 ^ 15 := by exact_mod_cast hn
    have h0 : (0 : ℝ) ≤ (at2 Data.refcn 6 s : ℕ) := Nat.cast_nonneg _
    have h : |(3 : ℝ) - (at2 Data.refcn 6 s : ℕ) / 10 ^ 14| ≤ 10 := by
      rw [abs_le]; constructor <;> linarith
    show 12 * |(6 : ℝ)| * |(3 : ℝ) - (at2 Data.refcn 6 s : ℕ) / 10 ^ 14| ≤ 10 ^ 308
    refine le_trans (b := (10 : ℝ) ^ 3) ?_ (pow_le_pow_right₀ (by norm_num) (by norm_num))
    rw [abs_of_nonneg (by norm_num : (0 : ℝ) ≤ 6)]
    linarith)

end TadDftd4
