import Verif.Lemmas.Damping
import Verif.Model.ThreeBody

/-!
# Evaluation of `get_atm_dispersion`
-/

set_option linter.unusedSimpArgs false

open scoped Classical

namespace TadDftd4

open Tensor

/-- The squared distance on the three sides: `s` of `threebody.py:147-151`. -/
noncomputable def angS (x y z : ℝ) : ℝ :=
  (x ^ 2 + z ^ 2 - y ^ 2) * (x ^ 2 - z ^ 2 + y ^ 2) * (-x ^ 2 + z ^ 2 + y ^ 2)

/-- Angular factor as computed: `x = r_ij`, `y = r_ik`, `z = r_jk`. -/
noncomputable def angF (x y z : ℝ) : ℝ :=
  0.375 * angS x y z / (x * y * z) ^ 5 + 1 / (x * y * z) ^ 3

/-- The triple passes the mask and the (incomplete) cutoff test of the code. -/
def tripleCut (env : Env) (numbers : Tensor ℕ) (positions : Tensor ℝ) (c : ℕ) (cutoff : ℝ)
    (b : Idx) (i j k : ℕ) : Prop :=
  tripleMask numbers b i j k ∧ distAt env positions c b i j ^ 2 ≤ cutoff * cutoff ∧
    distAt env positions c b j k ^ 2 ≤ cutoff * cutoff

/-- Energy of an ordered triple before the division by six. -/
noncomputable def tripleEnergy (env : Env) (numbers : Tensor ℕ) (positions c9 radii : Tensor ℝ)
    (c : ℕ) (cutoff s9 : ℝ) (f : ℝ → ℝ → ℝ) (b : Idx) (i j k : ℕ) : ℝ :=
  if tripleCut env numbers positions c cutoff b i j k then
    angF (distAt env positions c b i j) (distAt env positions c b i k)
      (distAt env positions c b j k) *
    f (radii.get (j :: i :: b) * radii.get (k :: i :: b) * radii.get (k :: j :: b))
      (distAt env positions c b i j * distAt env positions c b i k * distAt env positions c b j k) *
    s9 * c9.get (k :: j :: i :: b)
  else 0

section
variable {env : Env} {numbers : Tensor ℕ} {positions c9 radii : Tensor ℝ} {n c : ℕ} {B : Shape}
  {d : Damping}

theorem dist2T_ok (hn : numbers.Ok (n :: B)) (hp : positions.Ok (c :: n :: B)) :
    (dist2T env numbers positions).Ok (n :: n :: B) := by
  have h := pairDistances_ok (env := env) hn hp
  exact ⟨h.err, h.shape⟩

theorem dist2T_get (hn : numbers.Ok (n :: B)) (hp : positions.Ok (c :: n :: B)) {b : Idx}
    {i j : ℕ} (hb : InB B b) (hi : i < n) (hj : j < n) (hm : pairMask numbers b i j) :
    (dist2T env numbers positions).get (j :: i :: b) = distAt env positions c b i j ^ 2 := by
  have h := pairDistances_get (env := env) hn hp hb hi hj
  rw [if_pos hm] at h
  rw [← h]; rfl

theorem tripleMask_pairs {b : Idx} {i j k : ℕ} (h : tripleMask numbers b i j k) :
    pairMask numbers b i j ∧ pairMask numbers b i k ∧ pairMask numbers b j k := by
  obtain ⟨h1, h2, h3, h4, h5, h6⟩ := h
  exact ⟨⟨h1, h2, h4⟩, ⟨h1, h3, h5⟩, ⟨h2, h3, h6⟩⟩

section triple
variable {x : Tensor ℝ} (hx : x.Ok (n :: n :: B))
include hx

theorem ijT_ok : (ijT x).err = none ∧ (ijT x).shape = 1 :: n :: n :: B := by
  simp [ijT, hx.err, hx.shape]
theorem ikT_ok : (ikT x).err = none ∧ (ikT x).shape = n :: 1 :: n :: B := by
  simp [ikT, hx.err, hx.shape]
theorem jkT_ok : (jkT x).err = none ∧ (jkT x).shape = n :: n :: 1 :: B := by
  simp [jkT, hx.err, hx.shape]

end triple

@[simp] theorem ijT_get (x : Tensor ℝ) (i j k : ℕ) (b : Idx) :
    (ijT x).get (k :: j :: i :: b) = x.get (j :: i :: b) := by simp [ijT]
@[simp] theorem ikT_get (x : Tensor ℝ) (i j k : ℕ) (b : Idx) :
    (ikT x).get (k :: j :: i :: b) = x.get (k :: i :: b) := by simp [ikT]
@[simp] theorem jkT_get (x : Tensor ℝ) (i j k : ℕ) (b : Idx) :
    (jkT x).get (k :: j :: i :: b) = x.get (k :: j :: b) := by simp [jkT]

theorem atmDamp_point (hn : numbers.Ok (n :: B)) (hp : positions.Ok (c :: n :: B))
    (hr : radii.Ok (n :: n :: B)) {alp : ℝ} {f : ℝ → ℝ → ℝ}
    (hf : d.point env 9 true { alp := some (alp / 3) } = .ok f) :
    (atmDamp env numbers positions radii d alp).Ok (n :: n :: n :: B) ∧
    ∀ b i j k, InB B b → i < n → j < n → k < n → tripleMask numbers b i j k →
      (atmDamp env numbers positions radii d alp).get (k :: j :: i :: b) =
      f (radii.get (j :: i :: b) * radii.get (k :: i :: b) * radii.get (k :: j :: b))
      (distAt env positions c b i j * distAt env positions c b i k *
        distAt env positions c b j k) := by
  have hd2 := dist2T_ok (env := env) hn hp
  obtain ⟨ij1, ij2⟩ := ijT_ok hd2
  obtain ⟨ik1, ik2⟩ := ikT_ok hd2
  obtain ⟨jk1, jk2⟩ := jkT_ok hd2
  obtain ⟨rij1, rij2⟩ := ijT_ok hr
  obtain ⟨rik1, rik2⟩ := ikT_ok hr
  obtain ⟨rjk1, rjk2⟩ := jkT_ok hr
  have h0 : (ijT radii * ikT radii * jkT radii).Ok (n :: n :: n :: B) := by
    constructor <;> simp [rij1, rij2, rik1, rik2, rjk1, rjk2]
  have h1 : (where_ (realTriples numbers) ((ijT (dist2T env numbers positions) *
      ikT (dist2T env numbers positions) * jkT (dist2T env numbers positions)).map Real.sqrt)
      (scalar 1)).Ok (n :: n :: n :: B) := by
    constructor <;> simp [ij1, ij2, ik1, ik2, jk1, jk2, realTriples_err hn.shape,
      realTriples_shape hn.shape, hn.err]
  have hpt := damping_call_point (env := env) (d := d) h0 h1 9 true { alp := some (alp / 3) }
  rw [hf] at hpt
  obtain ⟨hok, hget⟩ := hpt
  refine ⟨⟨?_, ?_⟩, ?_⟩
  · simp only [atmDamp, after_err, h0.err, h1.err]
    rw [where_err]
    simp [hok.err, hok.shape, realTriples_err hn.shape, realTriples_shape hn.shape, hn.err]
  · simp only [atmDamp, after_shape]
    rw [where_shape]
    simp [hok.shape, realTriples_shape hn.shape]
  · intro b i j k hb hi hj hk hm
    have hin : InB (n :: n :: n :: B) (k :: j :: i :: b) := ⟨hk, hj, hi, hb⟩
    obtain ⟨m1, m2, m3⟩ := tripleMask_pairs hm
    have hg := hget _ hin
    simp only [atmDamp, after_get]
    rw [where_get_of_pos, hok.shape, pick_of_InB hin, hg]
    · congr 1
      · simp [rij2, rik2, rjk2, pick_cons_lt hi, pick_cons_lt hj, pick_cons_lt hk, pick_of_InB hb]
      · rw [where_get_of_pos]
        · simp [ij2, ik2, jk2, pick_cons_lt hi, pick_cons_lt hj, pick_cons_lt hk, pick_of_InB hb]
          simp [ijT, ikT, jkT, dist2T_get hn hp hb hi hj m1, dist2T_get hn hp hb hi hk m2,
            dist2T_get hn hp hb hj hk m3]
          rw [← mul_pow, ← mul_pow, Real.sqrt_sq]
          exact (mul_pos (mul_pos (distAt_pos _ _ _) (distAt_pos _ _ _)) (distAt_pos _ _ _)).le
        · rw [realTriples_shape hn.shape, pick_of_InB hin]; exact hm
    · rw [realTriples_shape hn.shape, pick_of_InB hin]; exact hm

theorem atmDamp_error (hn : numbers.Ok (n :: B)) (hp : positions.Ok (c :: n :: B))
    (hr : radii.Ok (n :: n :: B)) {alp : ℝ} {e : Err}
    (hf : d.point env 9 true { alp := some (alp / 3) } = .error e) :
    (atmDamp env numbers positions radii d alp).err = some e := by
  have hd2 := dist2T_ok (env := env) hn hp
  obtain ⟨ij1, ij2⟩ := ijT_ok hd2
  obtain ⟨ik1, ik2⟩ := ikT_ok hd2
  obtain ⟨jk1, jk2⟩ := jkT_ok hd2
  obtain ⟨rij1, rij2⟩ := ijT_ok hr
  obtain ⟨rik1, rik2⟩ := ikT_ok hr
  obtain ⟨rjk1, rjk2⟩ := jkT_ok hr
  have h0 : (ijT radii * ikT radii * jkT radii).Ok (n :: n :: n :: B) := by
    constructor <;> simp [rij1, rij2, rik1, rik2, rjk1, rjk2]
  have h1 : (where_ (realTriples numbers) ((ijT (dist2T env numbers positions) *
      ikT (dist2T env numbers positions) * jkT (dist2T env numbers positions)).map Real.sqrt)
      (scalar 1)).Ok (n :: n :: n :: B) := by
    constructor <;> simp [ij1, ij2, ik1, ik2, jk1, jk2, realTriples_err hn.shape,
      realTriples_shape hn.shape, hn.err]
  have hpt := damping_call_point (env := env) (d := d) h0 h1 9 true { alp := some (alp / 3) }
  rw [hf] at hpt
  have hpt' := hpt
  simp only [IsPoint] at hpt'
  simp only [atmDamp, after_err, h0.err, h1.err]
  rw [where_err, hpt']
  simp [realTriples_err hn.shape, hn.err]

theorem atmAng_eval (hn : numbers.Ok (n :: B)) (hp : positions.Ok (c :: n :: B)) (cutoff : ℝ) :
    (atmAng env numbers positions cutoff).Ok (n :: n :: n :: B) ∧
    ∀ b i j k, InB B b → i < n → j < n → k < n →
      (atmAng env numbers positions cutoff).get (k :: j :: i :: b) =
      if tripleCut env numbers positions c cutoff b i j k then
        angF (distAt env positions c b i j) (distAt env positions c b i k)
          (distAt env positions c b j k) else 0 := by
  have hd2 := dist2T_ok (env := env) hn hp
  obtain ⟨ij1, ij2⟩ := ijT_ok hd2
  obtain ⟨ik1, ik2⟩ := ikT_ok hd2
  obtain ⟨jk1, jk2⟩ := jkT_ok hd2
  refine ⟨⟨?_, ?_⟩, ?_⟩
  · simp [atmAng, ij1, ij2, ik1, ik2, jk1, jk2, realTriples_err hn.shape,
      realTriples_shape hn.shape, hn.err]
  · simp [atmAng, ij2, ik2, jk2, realTriples_shape hn.shape]
  · intro b i j k hb hi hj hk
    have hin : InB (n :: n :: n :: B) (k :: j :: i :: b) := ⟨hk, hj, hi, hb⟩
    simp only [atmAng]
    by_cases hm : tripleMask numbers b i j k
    · obtain ⟨m1, m2, m3⟩ := tripleMask_pairs hm
      have e1 := dist2T_get (env := env) hn hp hb hi hj m1
      have e2 := dist2T_get (env := env) hn hp hb hi hk m2
      have e3 := dist2T_get (env := env) hn hp hb hj hk m3
      have p1 : 0 < distAt env positions c b i j := distAt_pos _ _ _
      have p2 : 0 < distAt env positions c b i k := distAt_pos _ _ _
      have p3 : 0 < distAt env positions c b j k := distAt_pos _ _ _
      have hmget : ∀ (x y : Tensor ℝ), (where_ (realTriples numbers) x y).get (k :: j :: i :: b) =
          x.get (pick x.shape (k :: j :: i :: b)) := by
        intro x y
        rw [where_get_of_pos]
        rw [realTriples_shape hn.shape, pick_of_InB hin]; exact hm
      by_cases hc : distAt env positions c b i j ^ 2 ≤ cutoff * cutoff ∧
          distAt env positions c b j k ^ 2 ≤ cutoff * cutoff
      · rw [where_get_of_pos, if_pos (show tripleCut _ _ _ _ _ _ _ _ _ from ⟨hm, hc⟩)]
        · simp [ij2, ik2, jk2, realTriples_shape hn.shape, pick_cons_lt hi, pick_cons_lt hj,
            pick_cons_lt hk, pick_of_InB hb, hmget]
          simp [ijT, ikT, jkT, e1, e2, e3]
          have hs : Real.sqrt (distAt env positions c b i j ^ 2 * distAt env positions c b i k ^ 2 *
              distAt env positions c b j k ^ 2) = distAt env positions c b i j *
              distAt env positions c b i k * distAt env positions c b j k := by
            rw [← mul_pow, ← mul_pow, Real.sqrt_sq (by positivity)]
          rw [hs, angF, angS]
          field_simp
        · simp [ij2, ik2, jk2, realTriples_shape hn.shape, pick_cons_lt hi, pick_cons_lt hj,
            pick_cons_lt hk, pick_of_InB hb, hm]
          simp [ijT, ikT, jkT, e1, e2, e3, hc]
      · rw [where_get_of_neg, if_neg (fun h => hc h.2)]
        · simp
        · simp [ij2, ik2, jk2, realTriples_shape hn.shape, pick_cons_lt hi, pick_cons_lt hj,
            pick_cons_lt hk, pick_of_InB hb, hm]
          simp [ijT, ikT, jkT, e1, e2, e3]
          intro h1; by_contra h2; exact hc ⟨h1, by simpa using h2⟩
    · rw [where_get_of_neg, if_neg (fun h => hm h.1)]
      · simp
      · simp [ij2, ik2, jk2, realTriples_shape hn.shape, pick_cons_lt hi, pick_cons_lt hj,
            pick_cons_lt hk, pick_of_InB hb, hm]

/-- `get_atm_dispersion` with valid input: no exception, shape, and values. -/
theorem atmDispersion_eval (hn : numbers.Ok (n :: B)) (hp : positions.Ok (c :: n :: B))
    (hr : radii.Ok (n :: n :: B)) (h9 : c9.Ok (n :: n :: n :: B)) {alp : ℝ} {f : ℝ → ℝ → ℝ}
    (hf : d.point env 9 true { alp := some (alp / 3) } = .ok f) (cutoff s9 : ℝ) :
    (atmDispersion env numbers positions c9 radii cutoff d s9 alp).Ok (n :: B) ∧
    ∀ b i, InB B b → i < n →
      (atmDispersion env numbers positions c9 radii cutoff d s9 alp).get (i :: b) =
      (∑ j ∈ Finset.range n, ∑ k ∈ Finset.range n,
        tripleEnergy env numbers positions c9 radii c cutoff s9 f b i j k) / 6 := by
  obtain ⟨fok, fget⟩ := atmDamp_point hn hp hr hf
  obtain ⟨aok, aget⟩ := atmAng_eval (env := env) hn hp cutoff
  refine ⟨⟨?_, ?_⟩, ?_⟩
  · simp [atmDispersion, fok.err, fok.shape, aok.err, aok.shape, h9.err, h9.shape]
  · simp [atmDispersion, fok.shape, aok.shape, h9.shape]
  · intro b i hb hi
    simp only [atmDispersion, after_get, div_get, scalar_get, scalar_shape, sumLast_shape,
      mul_shape, fok.shape, aok.shape, h9.shape, bshape_self, bshape_nil_right, List.tail_cons,
      pick_cons_lt hi, pick_of_InB hb]
    congr 1
    rw [sumLast_get (d := n) (s := n :: B) (by simp [fok.shape, aok.shape, h9.shape])]
    refine Finset.sum_congr rfl fun j hj => ?_
    rw [sumLast_get (d := n) (s := n :: n :: B) (by simp [fok.shape, aok.shape, h9.shape])]
    refine Finset.sum_congr rfl fun k hk => ?_
    have hj := Finset.mem_range.1 hj
    have hk := Finset.mem_range.1 hk
    simp [fok.shape, aok.shape, h9.shape, pick_cons_lt hi, pick_cons_lt hj,
            pick_cons_lt hk, pick_of_InB hb, aget b i j k hb hi hj hk, tripleEnergy]
    split_ifs with h
    · rw [fget b i j k hb hi hj hk h.1]
    · simp

theorem atmDispersion_error (hn : numbers.Ok (n :: B)) (hp : positions.Ok (c :: n :: B))
    (hr : radii.Ok (n :: n :: B)) {alp : ℝ} {e : Err}
    (hf : d.point env 9 true { alp := some (alp / 3) } = .error e) (cutoff s9 : ℝ) :
    (atmDispersion env numbers positions c9 radii cutoff d s9 alp).err = some e := by
  simp [atmDispersion, atmDamp_error hn hp hr hf]

end
end TadDftd4
