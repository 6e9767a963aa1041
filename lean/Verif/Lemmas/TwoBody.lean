import Verif.Model.TwoBody

/-!
# Evaluation of the two-body term
-/

open scoped Classical

namespace TadDftd4

open Tensor

/-- Congruence for `ite` that ignores the decidability instances. -/
theorem ite_iff {α : Type} {P Q : Prop} {dP : Decidable P} {dQ : Decidable Q} {x y x' y' : α}
    (h : P ↔ Q) (hx : x = x') (hy : y = y') : @ite α P dP x y = @ite α Q dQ x' y' := by
  subst hx hy
  by_cases hP : P
  · rw [if_pos hP, if_pos (h.1 hP)]
  · rw [if_neg hP, if_neg (fun hQ => hP (h.2 hQ))]

/-- The tensor has no error and the given shape. -/
structure Tensor.Ok {α : Type} (t : Tensor α) (s : Shape) : Prop where
  err : t.err = none
  shape : t.shape = s

theorem bErr_cons_eq_none {a b : ℕ} {s t : Shape} (h : dimOk a b) (h' : bErr s t = none) :
    bErr (a :: s) (b :: t) = none := by
  rw [bErr_eq_none] at *; exact ⟨h, h'⟩

@[simp] theorem bErr_cons_self (a : ℕ) (s t : Shape) : bErr (a :: s) (a :: t) = bErr s t := by
  by_cases h : bcompat s t <;> simp [bErr, h]
@[simp] theorem bErr_cons_one_left (a : ℕ) (s t : Shape) : bErr (1 :: s) (a :: t) = bErr s t := by
  by_cases h : bcompat s t <;> simp [bErr, h]
@[simp] theorem bErr_cons_one_right (a : ℕ) (s t : Shape) : bErr (a :: s) (1 :: t) = bErr s t := by
  by_cases h : bcompat s t <;> simp [bErr, h]

section
variable {env : Env} {numbers : Tensor ℕ} {positions : Tensor ℝ} {n c : ℕ} {B : Shape}

/-- Squared Euclidean distance of two atoms in entry `b` of the batch. -/
noncomputable def sqDist (positions : Tensor ℝ) (c : ℕ) (b : Idx) (i j : ℕ) : ℝ :=
  ∑ k ∈ Finset.range c, (positions.get (k :: i :: b) - positions.get (k :: j :: b)) ^ 2

/-- The clamped distance used by the code. -/
noncomputable def distAt (env : Env) (positions : Tensor ℝ) (c : ℕ) (b : Idx) (i j : ℕ) : ℝ :=
  env.ssqrt (sqDist positions c b i j)

theorem sqDist_comm (b : Idx) (i j : ℕ) :
    sqDist positions c b i j = sqDist positions c b j i := by
  unfold sqDist; refine Finset.sum_congr rfl fun k _ => ?_; ring

theorem distAt_comm (b : Idx) (i j : ℕ) :
    distAt env positions c b i j = distAt env positions c b j i := by
  unfold distAt; rw [sqDist_comm]

theorem distAt_pos (b : Idx) (i j : ℕ) : 0 < distAt env positions c b i j := by
  unfold distAt Env.ssqrt
  exact Real.sqrt_pos.2 (lt_max_of_lt_right env.eps_pos)

theorem pairMask_comm (b : Idx) (i j : ℕ) : pairMask numbers b i j ↔ pairMask numbers b j i := by
  unfold pairMask; constructor <;> rintro ⟨h1, h2, h3⟩ <;> exact ⟨h2, h1, h3.symm⟩

theorem pairDistances_ok (hn : numbers.Ok (n :: B)) (hp : positions.Ok (c :: n :: B)) :
    (pairDistances env numbers positions).Ok (n :: n :: B) := by
  constructor
  · simp [pairDistances, realPairs_err hn.shape, realPairs_shape hn.shape, cdist_err hp.shape,
      cdist_shape hp.shape, hn.err, hp.err]
  · simp [pairDistances, realPairs_shape hn.shape, cdist_shape hp.shape]

theorem pairDistances_get (hn : numbers.Ok (n :: B)) (hp : positions.Ok (c :: n :: B))
    {b : Idx} {i j : ℕ} (hb : InB B b) (hi : i < n) (hj : j < n) :
    (pairDistances env numbers positions).get (j :: i :: b) =
      if pairMask numbers b i j then distAt env positions c b i j else env.eps := by
  simp [pairDistances, where_get, realPairs_shape hn.shape, cdist_shape hp.shape,
    pick_cons_lt hi, pick_cons_lt hj, pick_of_InB hb, cdist_get hp.shape, distAt, sqDist]

variable {r4r2 : Tensor ℝ}

theorem qqT_ok (hr : r4r2.Ok (n :: B)) : (qqT r4r2).Ok (n :: n :: B) := by
  constructor <;> simp [qqT, hr.err, hr.shape]

theorem qqT_get (hr : r4r2.Ok (n :: B)) {b : Idx} {i j : ℕ} (hb : InB B b) (hi : i < n)
    (hj : j < n) :
    (qqT r4r2).get (j :: i :: b) = 3 * r4r2.get (i :: b) * r4r2.get (j :: b) := by
  simp [qqT, hr.shape, pick_cons_lt hi, pick_cons_lt hj, pick_of_InB hb]

end
end TadDftd4
