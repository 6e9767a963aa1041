import Verif.Lemmas.Dispersion2
import Verif.Model.OnlyDamping

/-!
# Evaluation of `dispersion2` with an entry `only_damping`
-/

set_option linter.unusedSimpArgs false

open scoped Classical

namespace TadDftd4

open Tensor

section
variable {env : Env} {numbers : Tensor ℕ} {positions c6 r4r2 rvdw : Tensor ℝ} {n c : ℕ} {B : Shape}
  {p : Param} {d : Damping} {k : OnlyKey}

theorem tDampO_ok (h : D2Shapes numbers positions c6 r4r2 rvdw n c B) (he : p.extra = [])
    {order : ℕ} {f : ℝ → ℝ → ℝ} (hf : d.point env order k.flag p.kw = .ok f) (cutoff : ℝ) :
    (tDampO env k numbers positions p (radii2 d r4r2 (some rvdw)) d cutoff order).Ok (n :: n :: B) ∧
    ∀ b i j, InB B b → i < n → j < n →
      (tDampO env k numbers positions p (radii2 d r4r2 (some rvdw)) d cutoff order).get (j :: i :: b) =
      if inCut env numbers positions c cutoff b i j then
        f (distAt env positions c b i j) (radAt d r4r2 rvdw b i j) else 0 := by
  have hdist := pairDistances_ok (env := env) h.num h.pos
  have hrad := radii2_ok (d := d) h
  have hpt := damping_call_point (env := env) (d := d) hdist hrad order k.flag p.kw
  rw [hf] at hpt
  obtain ⟨hok, hget⟩ := hpt
  have hsh : (d.callParamO env k (pairDistances env numbers positions) (radii2 d r4r2 (some rvdw))
      order p) = (d.call env (pairDistances env numbers positions) (radii2 d r4r2 (some rvdw)) order
    k.flag p.kw) := by simp [Damping.callParamO, he]
  refine ⟨⟨?_, ?_⟩, ?_⟩
  · simp [tDampO, hsh, hok.err, hok.shape, hdist.err, hdist.shape, realPairs_err h.num.shape,
      realPairs_shape h.num.shape, h.num.err]
  · simp [tDampO, hsh, hok.err, hok.shape, hdist.err, hdist.shape, realPairs_err h.num.shape,
      realPairs_shape h.num.shape, h.num.err]
  · intro b i j hb hi hj
    have hin : InB (n :: n :: B) (j :: i :: b) := ⟨hj, hi, hb⟩
    have hg := hget _ hin
    rw [pairDistances_get h.num h.pos hb hi hj, radii2_get h hb hi hj] at hg
    unfold tDampO
    by_cases hm : pairMask numbers b i j
    · rw [if_pos hm] at hg
      by_cases hc : distAt env positions c b i j ≤ cutoff
      · rw [where_get_of_pos, if_pos ⟨hm, hc⟩, hsh, hok.shape, pick_of_InB hin, hg]
        simp [realPairs_shape h.num.shape, hdist.shape, pick_cons_lt hi, pick_cons_lt hj,
          pick_of_InB hb, pairDistances_get h.num h.pos hb hi hj, hm, hc]
      · rw [where_get_of_neg, if_neg (fun hh => hc hh.2)]
        · simp
        simp [realPairs_shape h.num.shape, hdist.shape, pick_cons_lt hi, pick_cons_lt hj,
          pick_of_InB hb, pairDistances_get h.num h.pos hb hi hj, hm, not_le.1 hc]
    · rw [where_get_of_neg, if_neg (fun hh => hm hh.1)]
      · simp
      simp [realPairs_shape h.num.shape, hdist.shape, pick_cons_lt hi, pick_cons_lt hj,
          pick_of_InB hb, pairDistances_get h.num h.pos hb hi hj, hm]

/-- `dispersion2` with valid input: no exception, documented shapes, and values. -/
theorem dispersion2O_eval (h : D2Shapes numbers positions c6 r4r2 rvdw n c B) (he : p.extra = [])
    {f6 f8 f10 : ℝ → ℝ → ℝ} {s6 s8 : ℝ}
    (hf6 : d.point env 6 k.flag p.kw = .ok f6) (hf8 : d.point env 8 k.flag p.kw = .ok f8)
    (hs6 : p.s6.Is Defaults.s6 s6) (hs8 : p.s8.Is Defaults.s8 s8)
    (h10 : p.s10 = .absent) (cutoff : Option ℝ) :
    (dispersion2O env k numbers positions p c6 r4r2 (some rvdw) d cutoff true).Ok (n :: n :: B) ∧
    (dispersion2O env k numbers positions p c6 r4r2 (some rvdw) d cutoff false).Ok (n :: B) ∧
    (∀ b i j, InB B b → i < n → j < n →
      (dispersion2O env k numbers positions p c6 r4r2 (some rvdw) d cutoff true).get (j :: i :: b) =
      -pairEnergy env numbers positions c6 r4r2 rvdw c d (cutoff.getD Defaults.disp2Cutoff)
        s6 s8 0 f6 f8 f10 b i j) ∧
    (∀ b i, InB B b → i < n →
      (dispersion2O env k numbers positions p c6 r4r2 (some rvdw) d cutoff false).get (i :: b) =
      -(1 / 2) * ∑ j ∈ Finset.range n,
        pairEnergy env numbers positions c6 r4r2 rvdw c d (cutoff.getD Defaults.disp2Cutoff)
        s6 s8 0 f6 f8 f10 b i j) := by
  set cut := cutoff.getD Defaults.disp2Cutoff with hcut
  have hdist := pairDistances_ok (env := env) h.num h.pos
  have hrad := radii2_ok (d := d) h
  have hqq := qqT_ok h.r4r2
  obtain ⟨t6ok, t6get⟩ := tDampO_ok h he hf6 cut
  obtain ⟨t8ok, t8get⟩ := tDampO_ok h he hf8 cut
  have key : ∀ b i j, InB B b → i < n → j < n →
      pairEnergy env numbers positions c6 r4r2 rvdw c d cut s6 s8 0 f6 f8 f10 b i j =
      s6 * (c6.get (j :: i :: b) *
        (tDampO env k numbers positions p (radii2 d r4r2 (some rvdw)) d cut 6).get (j :: i :: b)) +
      s8 * (c6.get (j :: i :: b) * (3 * r4r2.get (i :: b) * r4r2.get (j :: b)) *
        (tDampO env k numbers positions p (radii2 d r4r2 (some rvdw)) d cut 8).get (j :: i :: b)) := by
    intro b i j hb hi hj
    rw [t6get b i j hb hi hj, t8get b i j hb hi hj, pairEnergy]
    split_ifs <;> simp [pairE]
  refine ⟨⟨?_, ?_⟩, ⟨?_, ?_⟩, ?_, ?_⟩
  · simp [dispersion2O, h10, hs6.tensor, hs8.tensor, ← hcut, hdist.err, hqq.err, hqq.shape,
      h.c6.err, h.c6.shape, hrad.err, t6ok.err, t8ok.err, t6ok.shape, t8ok.shape]
  · simp [dispersion2O, h10, hs6.tensor, hs8.tensor, ← hcut, hqq.shape,
      h.c6.shape, t6ok.shape, t8ok.shape]
  · simp [dispersion2O, h10, hs6.tensor, hs8.tensor, ← hcut, hdist.err, hqq.err, hqq.shape,
      h.c6.err, h.c6.shape, hrad.err, t6ok.err, t8ok.err, t6ok.shape, t8ok.shape]
  · simp [dispersion2O, h10, hs6.tensor, hs8.tensor, ← hcut, hqq.shape,
      h.c6.shape, t6ok.shape, t8ok.shape]
  · intro b i j hb hi hj
    rw [key b i j hb hi hj]
    simp [dispersion2O, h10, hs6.tensor, hs8.tensor, ← hcut, hqq.shape,
      h.c6.shape, t6ok.shape, t8ok.shape, pick_cons_lt hi, pick_cons_lt hj, pick_of_InB hb,
      qqT_get h.r4r2 hb hi hj]
  · intro b i hb hi
    rw [Finset.sum_congr rfl fun j hj => key b i j hb hi (Finset.mem_range.1 hj)]
    have hsum : ∀ (x : Tensor ℝ), x.shape = n :: n :: B → ∀ k : Idx,
        x.sumLast.get k = ∑ j ∈ Finset.range n, x.get (j :: k) := fun x hx k => sumLast_get hx k
    simp only [dispersion2O, h10, hs6.tensor, hs8.tensor, ← hcut, after_get, Bool.false_eq_true,
      if_false]
    simp only [mul_get, add_get, scalar_get, scalar_shape, pick_nil, mul_shape, add_shape,
      sumLast_shape, hqq.shape, h.c6.shape, t6ok.shape, t8ok.shape, bshape_self, bshape_nil_left,
      List.tail_cons, pick_cons_lt hi, pick_of_InB hb]
    rw [hsum _ (by simp [h.c6.shape, t6ok.shape]),
      hsum _ (by simp [h.c6.shape, t8ok.shape, hqq.shape])]
    rw [Finset.sum_add_distrib, ← Finset.mul_sum, ← Finset.mul_sum]
    norm_num
    congr 1
    · congr 1
      refine Finset.sum_congr rfl fun j hj => ?_
      have hj := Finset.mem_range.1 hj
      simp [h.c6.shape, t6ok.shape, pick_cons_lt hi, pick_cons_lt hj, pick_of_InB hb]
    · congr 1
      refine Finset.sum_congr rfl fun j hj => ?_
      have hj := Finset.mem_range.1 hj
      simp [h.c6.shape, t8ok.shape, hqq.shape, pick_cons_lt hi, pick_cons_lt hj, pick_of_InB hb,
        qqT_get h.r4r2 hb hi hj]

end
end TadDftd4
