import Verif.Lemmas.Damping

/-!
# Evaluation of `dispersion2`
-/

set_option linter.unusedSimpArgs false

open scoped Classical

namespace TadDftd4

open Tensor

/-- `x` is real pair within the cutoff. -/
def inCut (env : Env) (numbers : Tensor ℕ) (positions : Tensor ℝ) (c : ℕ) (cutoff : ℝ) (b : Idx)
    (i j : ℕ) : Prop :=
  pairMask numbers b i j ∧ distAt env positions c b i j ≤ cutoff

/-- A numeric parameter with default. -/
def PVal.Is (v : PVal) (dflt x : ℝ) : Prop := v = .val x ∨ (v = .absent ∧ x = dflt)

theorem PVal.Is.tensor {v : PVal} {d x : ℝ} (h : v.Is d x) : v.tensor d = scalar x := by
  rcases h with rfl | ⟨rfl, rfl⟩ <;> rfl

theorem PVal.Is.num {v : PVal} {d x : ℝ} (h : v.Is d x) : v.num d = some x := by
  rcases h with rfl | ⟨rfl, rfl⟩ <;> rfl

/-- Inputs of `dispersion2` with consistent shapes. -/
structure D2Shapes (numbers : Tensor ℕ) (positions c6 r4r2 rvdw : Tensor ℝ) (n c : ℕ) (B : Shape) :
    Prop where
  num : numbers.Ok (n :: B)
  pos : positions.Ok (c :: n :: B)
  c6 : c6.Ok (n :: n :: B)
  r4r2 : r4r2.Ok (n :: B)
  rvdw : rvdw.Ok (n :: n :: B)

/-- Critical radius argument passed to the damping function for a pair. -/
noncomputable def radAt (d : Damping) (r4r2 rvdw : Tensor ℝ) (b : Idx) (i j : ℕ) : ℝ :=
  match d.radiusType with
  | .rvdw => rvdw.get (j :: i :: b)
  | .r4r2 => 3 * r4r2.get (i :: b) * r4r2.get (j :: b)

/-- Damped `C6`, `C8`, `C10` contributions of a pair. -/
noncomputable def pairE (s6 s8 s10 : ℝ) (f6 f8 f10 : ℝ → ℝ → ℝ) (C6 qq R rad : ℝ) : ℝ :=
  s6 * (C6 * f6 R rad) + s8 * (C6 * qq * f8 R rad) + s10 * (C6 * qq ^ 2 * 49 / 40 * f10 R rad)

/-- Energy (without sign) of a pair, including mask and cutoff. -/
noncomputable def pairEnergy (env : Env) (numbers : Tensor ℕ) (positions c6 r4r2 rvdw : Tensor ℝ)
    (c : ℕ) (d : Damping) (cutoff s6 s8 s10 : ℝ) (f6 f8 f10 : ℝ → ℝ → ℝ) (b : Idx) (i j : ℕ) : ℝ :=
  if inCut env numbers positions c cutoff b i j then
    pairE s6 s8 s10 f6 f8 f10 (c6.get (j :: i :: b)) (3 * r4r2.get (i :: b) * r4r2.get (j :: b))
      (distAt env positions c b i j) (radAt d r4r2 rvdw b i j)
  else 0

section
variable {env : Env} {numbers : Tensor ℕ} {positions c6 r4r2 rvdw : Tensor ℝ} {n c : ℕ} {B : Shape}
  {p : Param} {d : Damping}

theorem radii2_ok (h : D2Shapes numbers positions c6 r4r2 rvdw n c B) :
    (radii2 d r4r2 (some rvdw)).Ok (n :: n :: B) := by
  unfold radii2
  cases d <;> simp only [Damping.radiusType] <;> first | exact qqT_ok h.r4r2 | exact h.rvdw

theorem radii2_get (h : D2Shapes numbers positions c6 r4r2 rvdw n c B) {b : Idx} {i j : ℕ}
    (hb : InB B b) (hi : i < n) (hj : j < n) :
    (radii2 d r4r2 (some rvdw)).get (j :: i :: b) = radAt d r4r2 rvdw b i j := by
  unfold radii2 radAt
  cases d <;> simp only [Damping.radiusType] <;> exact qqT_get h.r4r2 hb hi hj

/-- If the damping call of the given order raises, so does the masked tensor. -/
theorem tDamp_error (h : D2Shapes numbers positions c6 r4r2 rvdw n c B) (he : p.extra = [])
    {order : ℕ} {e : Err} (hf : d.point env order false p.kw = .error e) (cutoff : ℝ) :
    (tDamp env numbers positions p (radii2 d r4r2 (some rvdw)) d cutoff order).err = some e := by
  have hdist := pairDistances_ok (env := env) h.num h.pos
  have hrad := radii2_ok (d := d) h
  have hpt := damping_call_point (env := env) (d := d) hdist hrad order false p.kw
  rw [hf] at hpt
  have hpt' : (d.call env (pairDistances env numbers positions) (radii2 d r4r2 (some rvdw)) order
    false p.kw).err = some e := hpt
  simp [tDamp, Damping.callParam, he, hpt', hdist.err, hdist.shape, realPairs_err h.num.shape,
    realPairs_shape h.num.shape, h.num.err]

theorem tDamp_ok (h : D2Shapes numbers positions c6 r4r2 rvdw n c B) (he : p.extra = [])
    {order : ℕ} {f : ℝ → ℝ → ℝ} (hf : d.point env order false p.kw = .ok f) (cutoff : ℝ) :
    (tDamp env numbers positions p (radii2 d r4r2 (some rvdw)) d cutoff order).Ok (n :: n :: B) ∧
    ∀ b i j, InB B b → i < n → j < n →
      (tDamp env numbers positions p (radii2 d r4r2 (some rvdw)) d cutoff order).get (j :: i :: b) =
      if inCut env numbers positions c cutoff b i j then
        f (distAt env positions c b i j) (radAt d r4r2 rvdw b i j) else 0 := by
  have hdist := pairDistances_ok (env := env) h.num h.pos
  have hrad := radii2_ok (d := d) h
  have hpt := damping_call_point (env := env) (d := d) hdist hrad order false p.kw
  rw [hf] at hpt
  obtain ⟨hok, hget⟩ := hpt
  have hsh : (d.callParam env (pairDistances env numbers positions) (radii2 d r4r2 (some rvdw))
      order p) = (d.call env (pairDistances env numbers positions) (radii2 d r4r2 (some rvdw)) order
    false p.kw) := by simp [Damping.callParam, he]
  refine ⟨⟨?_, ?_⟩, ?_⟩
  · simp [tDamp, hsh, hok.err, hok.shape, hdist.err, hdist.shape, realPairs_err h.num.shape,
      realPairs_shape h.num.shape, h.num.err]
  · simp [tDamp, hsh, hok.err, hok.shape, hdist.err, hdist.shape, realPairs_err h.num.shape,
      realPairs_shape h.num.shape, h.num.err]
  · intro b i j hb hi hj
    have hin : InB (n :: n :: B) (j :: i :: b) := ⟨hj, hi, hb⟩
    have hg := hget _ hin
    rw [pairDistances_get h.num h.pos hb hi hj, radii2_get h hb hi hj] at hg
    unfold tDamp
    by_cases hm : pairMask numbers b i j
    · rw [if_pos hm] at hg
      by_cases hc : distAt env positions c b i j ≤ cutoff
      · rw [where_get_of_pos, if_pos ⟨hm, hc⟩, hsh, hok.shape, pick_of_InB hin, hg]
        simp [realPairs_shape h.num.shape, hdist.shape, pick_cons_lt hi, pick_cons_lt hj,
          pick_of_InB hb, pairDistances_get h.num h.pos hb hi hj, hm, hc]
      · rw [where_get_of_neg, if_neg (fun hh => hc hh.2)]
        · simp
        simp [realPairs_shape h.num.shape, hdist.shape, pick_cons_lt hi, pick_cons_lt hj,
          pick_of_InB hb, pairDistances_get h.num h.pos hb hi hj, hm, not_le.1 hc]
    · rw [where_get_of_neg, if_neg (fun hh => hm hh.1)]
      · simp
      simp [realPairs_shape h.num.shape, hdist.shape, pick_cons_lt hi, pick_cons_lt hj,
          pick_of_InB hb, pairDistances_get h.num h.pos hb hi hj, hm]

/-- How the `s10` entry enters: absent means no order-10 term. -/
def S10Is (env : Env) (d : Damping) (p : Param) (s10 : ℝ) (f10 : ℝ → ℝ → ℝ) : Prop :=
  (p.s10 = .absent ∧ s10 = 0) ∨
  (p.s10 = .val s10 ∧ d.point env 10 false p.kw = .ok f10)

/-- `dispersion2` with valid input: no exception, documented shapes, and values. -/
theorem dispersion2_eval (h : D2Shapes numbers positions c6 r4r2 rvdw n c B) (he : p.extra = [])
    {f6 f8 f10 : ℝ → ℝ → ℝ} {s6 s8 s10 : ℝ}
    (hf6 : d.point env 6 false p.kw = .ok f6) (hf8 : d.point env 8 false p.kw = .ok f8)
    (hs6 : p.s6.Is Defaults.s6 s6) (hs8 : p.s8.Is Defaults.s8 s8)
    (hs10 : S10Is env d p s10 f10) (cutoff : Option ℝ) :
    (dispersion2 env numbers positions p c6 r4r2 (some rvdw) d cutoff true).Ok (n :: n :: B) ∧
    (dispersion2 env numbers positions p c6 r4r2 (some rvdw) d cutoff false).Ok (n :: B) ∧
    (∀ b i j, InB B b → i < n → j < n →
      (dispersion2 env numbers positions p c6 r4r2 (some rvdw) d cutoff true).get (j :: i :: b) =
      -pairEnergy env numbers positions c6 r4r2 rvdw c d (cutoff.getD Defaults.disp2Cutoff)
        s6 s8 s10 f6 f8 f10 b i j) ∧
    (∀ b i, InB B b → i < n →
      (dispersion2 env numbers positions p c6 r4r2 (some rvdw) d cutoff false).get (i :: b) =
      -(1 / 2) * ∑ j ∈ Finset.range n,
        pairEnergy env numbers positions c6 r4r2 rvdw c d (cutoff.getD Defaults.disp2Cutoff)
        s6 s8 s10 f6 f8 f10 b i j) := by
  set cut := cutoff.getD Defaults.disp2Cutoff with hcut
  have hdist := pairDistances_ok (env := env) h.num h.pos
  have hrad := radii2_ok (d := d) h
  have hqq := qqT_ok h.r4r2
  obtain ⟨t6ok, t6get⟩ := tDamp_ok h he hf6 cut
  obtain ⟨t8ok, t8get⟩ := tDamp_ok h he hf8 cut
  rcases hs10 with ⟨h10, rfl⟩ | ⟨h10, hf10⟩
  · have key : ∀ b i j, InB B b → i < n → j < n →
        pairEnergy env numbers positions c6 r4r2 rvdw c d cut s6 s8 0 f6 f8 f10 b i j =
        s6 * (c6.get (j :: i :: b) *
          (tDamp env numbers positions p (radii2 d r4r2 (some rvdw)) d cut 6).get (j :: i :: b)) +
        s8 * (c6.get (j :: i :: b) * (3 * r4r2.get (i :: b) * r4r2.get (j :: b)) *
          (tDamp env numbers positions p (radii2 d r4r2 (some rvdw)) d cut 8).get (j :: i :: b)) := by
      intro b i j hb hi hj
      rw [t6get b i j hb hi hj, t8get b i j hb hi hj, pairEnergy]
      split_ifs <;> simp [pairE]
    refine ⟨⟨?_, ?_⟩, ⟨?_, ?_⟩, ?_, ?_⟩
    · simp [dispersion2, h10, hs6.tensor, hs8.tensor, ← hcut, hdist.err, hqq.err, hqq.shape,
        h.c6.err, h.c6.shape, hrad.err, t6ok.err, t8ok.err, t6ok.shape, t8ok.shape]
    · simp [dispersion2, h10, hs6.tensor, hs8.tensor, ← hcut, hqq.shape,
        h.c6.shape, t6ok.shape, t8ok.shape]
    · simp [dispersion2, h10, hs6.tensor, hs8.tensor, ← hcut, hdist.err, hqq.err, hqq.shape,
        h.c6.err, h.c6.shape, hrad.err, t6ok.err, t8ok.err, t6ok.shape, t8ok.shape]
    · simp [dispersion2, h10, hs6.tensor, hs8.tensor, ← hcut, hqq.shape,
        h.c6.shape, t6ok.shape, t8ok.shape]
    · intro b i j hb hi hj
      rw [key b i j hb hi hj]
      simp [dispersion2, h10, hs6.tensor, hs8.tensor, ← hcut, hqq.shape,
        h.c6.shape, t6ok.shape, t8ok.shape, pick_cons_lt hi, pick_cons_lt hj, pick_of_InB hb,
        qqT_get h.r4r2 hb hi hj]
    · intro b i hb hi
      rw [Finset.sum_congr rfl fun j hj => key b i j hb hi (Finset.mem_range.1 hj)]
      have hsum : ∀ (x : Tensor ℝ), x.shape = n :: n :: B → ∀ k : Idx,
          x.sumLast.get k = ∑ j ∈ Finset.range n, x.get (j :: k) := fun x hx k => sumLast_get hx k
      simp only [dispersion2, h10, hs6.tensor, hs8.tensor, ← hcut, after_get, Bool.false_eq_true,
        if_false]
      simp only [mul_get, add_get, scalar_get, scalar_shape, pick_nil, mul_shape, add_shape,
        sumLast_shape, hqq.shape, h.c6.shape, t6ok.shape, t8ok.shape, bshape_self, bshape_nil_left,
        List.tail_cons, pick_cons_lt hi, pick_of_InB hb]
      rw [hsum _ (by simp [h.c6.shape, t6ok.shape]),
        hsum _ (by simp [h.c6.shape, t8ok.shape, hqq.shape])]
      rw [Finset.sum_add_distrib, ← Finset.mul_sum, ← Finset.mul_sum]
      norm_num
      congr 1
      · congr 1
        refine Finset.sum_congr rfl fun j hj => ?_
        have hj := Finset.mem_range.1 hj
        simp [h.c6.shape, t6ok.shape, pick_cons_lt hi, pick_cons_lt hj, pick_of_InB hb]
      · congr 1
        refine Finset.sum_congr rfl fun j hj => ?_
        have hj := Finset.mem_range.1 hj
        simp [h.c6.shape, t8ok.shape, hqq.shape, pick_cons_lt hi, pick_cons_lt hj, pick_of_InB hb,
          qqT_get h.r4r2 hb hi hj]
  · obtain ⟨t10ok, t10get⟩ := tDamp_ok h he hf10 cut
    have h10t : (PVal.val s10).tensor Defaults.s10 = scalar s10 := rfl
    have key : ∀ b i j, InB B b → i < n → j < n →
        pairEnergy env numbers positions c6 r4r2 rvdw c d cut s6 s8 s10 f6 f8 f10 b i j =
        s6 * (c6.get (j :: i :: b) *
          (tDamp env numbers positions p (radii2 d r4r2 (some rvdw)) d cut 6).get (j :: i :: b)) +
        s8 * (c6.get (j :: i :: b) * (3 * r4r2.get (i :: b) * r4r2.get (j :: b)) *
          (tDamp env numbers positions p (radii2 d r4r2 (some rvdw)) d cut 8).get (j :: i :: b)) +
        s10 * (c6.get (j :: i :: b) * (3 * r4r2.get (i :: b) * r4r2.get (j :: b)) ^ 2 * 49 / 40 *
          (tDamp env numbers positions p (radii2 d r4r2 (some rvdw)) d cut 10).get
            (j :: i :: b)) := by
      intro b i j hb hi hj
      rw [t6get b i j hb hi hj, t8get b i j hb hi hj, t10get b i j hb hi hj, pairEnergy]
      split_ifs <;> simp [pairE]
    refine ⟨⟨?_, ?_⟩, ⟨?_, ?_⟩, ?_, ?_⟩
    · simp [dispersion2, h10, hs6.tensor, hs8.tensor, ← hcut, hdist.err, hqq.err, hqq.shape,
        h.c6.err, h.c6.shape, hrad.err, t6ok.err, t8ok.err, t6ok.shape, t8ok.shape, t10ok.err,
        t10ok.shape, h10t]
    · simp [dispersion2, h10, hs6.tensor, hs8.tensor, ← hcut, hqq.shape,
        h.c6.shape, t6ok.shape, t8ok.shape, t10ok.shape, h10t]
    · simp [dispersion2, h10, hs6.tensor, hs8.tensor, ← hcut, hdist.err, hqq.err, hqq.shape,
        h.c6.err, h.c6.shape, hrad.err, t6ok.err, t8ok.err, t6ok.shape, t8ok.shape, t10ok.err,
        t10ok.shape, h10t]
    · simp [dispersion2, h10, hs6.tensor, hs8.tensor, ← hcut, hqq.shape,
        h.c6.shape, t6ok.shape, t8ok.shape, t10ok.shape, h10t]
    · intro b i j hb hi hj
      rw [key b i j hb hi hj]
      simp [dispersion2, h10, hs6.tensor, hs8.tensor, ← hcut, hqq.shape,
        h.c6.shape, t6ok.shape, t8ok.shape, t10ok.shape, pick_cons_lt hi, pick_cons_lt hj,
        pick_of_InB hb, qqT_get h.r4r2 hb hi hj, h10t]
    · intro b i hb hi
      rw [Finset.sum_congr rfl fun j hj => key b i j hb hi (Finset.mem_range.1 hj)]
      have hsum : ∀ (x : Tensor ℝ), x.shape = n :: n :: B → ∀ k : Idx,
          x.sumLast.get k = ∑ j ∈ Finset.range n, x.get (j :: k) := fun x hx k => sumLast_get hx k
      simp only [dispersion2, h10, hs6.tensor, hs8.tensor, ← hcut, after_get, Bool.false_eq_true,
        if_false, h10t]
      simp only [mul_get, add_get, scalar_get, scalar_shape, pick_nil, mul_shape, add_shape,
        div_shape, map_shape, bshape_nil_right, after_get, after_shape,
        sumLast_shape, hqq.shape, h.c6.shape, t6ok.shape, t8ok.shape, t10ok.shape, bshape_self,
        bshape_nil_left, List.tail_cons, pick_cons_lt hi, pick_of_InB hb]
      rw [hsum _ (by simp [h.c6.shape, t6ok.shape]),
        hsum _ (by simp [h.c6.shape, t8ok.shape, hqq.shape]),
        hsum _ (by simp [h.c6.shape, t10ok.shape, hqq.shape])]
      rw [Finset.sum_add_distrib, Finset.sum_add_distrib, ← Finset.mul_sum, ← Finset.mul_sum,
        ← Finset.mul_sum]
      have hneg : (-0.5 : ℝ) = -(1 / 2) := by norm_num
      rw [hneg]
      refine congrArg₂ (· * ·) rfl (congrArg₂ (· + ·) (congrArg₂ (· + ·) (congrArg₂ (· * ·) rfl ?_)
        (congrArg₂ (· * ·) rfl ?_)) (congrArg₂ (· * ·) rfl ?_))
      · refine Finset.sum_congr rfl fun j hj => ?_
        have hj := Finset.mem_range.1 hj
        simp [h.c6.shape, t6ok.shape, pick_cons_lt hi, pick_cons_lt hj, pick_of_InB hb]
      · refine Finset.sum_congr rfl fun j hj => ?_
        have hj := Finset.mem_range.1 hj
        simp [h.c6.shape, t8ok.shape, hqq.shape, pick_cons_lt hi, pick_cons_lt hj, pick_of_InB hb,
          qqT_get h.r4r2 hb hi hj]
      · refine Finset.sum_congr rfl fun j hj => ?_
        have hj := Finset.mem_range.1 hj
        simp [h.c6.shape, t10ok.shape, hqq.shape, pick_cons_lt hi, pick_cons_lt hj, pick_of_InB hb,
          qqT_get h.r4r2 hb hi hj]

end
end TadDftd4
