import Verif.Lemmas.Errors

/-!
# Sums of tensors with broadcasting do not depend on the order
-/

set_option linter.unusedSimpArgs false

open scoped Classical

namespace TadDftd4

open Tensor

theorem dimOk_comm {a b : ℕ} : dimOk a b ↔ dimOk b a := by unfold dimOk; omega

theorem bcompat_comm {s t : Shape} : bcompat s t ↔ bcompat t s := by
  induction s generalizing t with
  | nil => simp
  | cons a s ih => cases t with
    | nil => simp
    | cons b t => simp [dimOk_comm (a := a), ih (t := t)]

theorem bshape_comm {s t : Shape} (h : bcompat s t) : bshape s t = bshape t s := by
  induction s generalizing t with
  | nil => simp
  | cons a s ih => cases t with
    | nil => simp
    | cons b t =>
      simp only [bshape_cons, ih h.2]
      congr 1
      have := h.1
      unfold dimOk at this
      unfold bdim
      split_ifs <;> omega

/-- Three shapes can be broadcast iff all pairs can. -/
theorem bcompat_bshape {s t u : Shape} (h : bcompat s t) :
    bcompat (bshape s t) u ↔ bcompat s u ∧ bcompat t u := by
  induction s generalizing t u with
  | nil => simp
  | cons a s ih => cases t with
    | nil => simp
    | cons b t => cases u with
      | nil => simp
      | cons c u =>
        simp only [bshape_cons, bcompat_cons, ih h.2]
        have := h.1
        unfold dimOk at this ⊢
        unfold bdim
        constructor
        · rintro ⟨h1, h2, h3⟩
          refine ⟨⟨?_, h2⟩, ?_, h3⟩ <;> split_ifs at h1 <;> omega
        · rintro ⟨⟨h1, h2⟩, h3, h4⟩
          exact ⟨by split_ifs <;> omega, h2, h4⟩

theorem bshape_right_comm {s t u : Shape} (h : bcompat s t) (h' : bcompat s u) (h'' : bcompat t u) :
    bshape (bshape s t) u = bshape (bshape s u) t := by
  induction s generalizing t u with
  | nil => simpa using bshape_comm h''
  | cons a s ih => cases t with
    | nil => simp
    | cons b t => cases u with
      | nil => simp
      | cons c u =>
        simp only [bshape_cons, ih h.2 h'.2 h''.2]
        congr 1
        have := h.1; have := h'.1; have := h''.1
        unfold dimOk at *
        unfold bdim
        split_ifs <;> omega

theorem pick_pick_self (s : Shape) (i : Idx) : pick s (pick s i) = pick s i := by
  induction s generalizing i with
  | nil => simp
  | cons a s ih => cases i with
    | nil => simp [pick, ih]
    | cons k i => simp only [pick, ih]; split_ifs <;> rfl

/-- Reading an operand through an intermediate result. -/
theorem pick_pick_left (s t : Shape) (i : Idx) : pick s (pick (bshape s t) i) = pick s i := by
  induction s generalizing t i with
  | nil => simp
  | cons a s ih => cases t with
    | nil => rw [bshape_nil_right]; exact pick_pick_self _ _
    | cons b t => cases i with
      | nil => simp [pick, ih]
      | cons k i =>
        simp only [bshape_cons, pick, ih]
        congr 1
        unfold bdim
        split_ifs <;> simp_all

theorem pick_pick_right {s t : Shape} (h : bcompat s t) (i : Idx) :
    pick t (pick (bshape s t) i) = pick t i := by
  rw [bshape_comm h]; exact pick_pick_left _ _ _

theorem InB_pick_left {s t : Shape} (h : bcompat s t) {i : Idx} (hi : InB (bshape s t) i) :
    InB s (pick s i) := by
  induction s generalizing t i with
  | nil => simp [InB]
  | cons a s ih => cases t with
    | nil =>
      rw [bshape_nil_right] at hi
      rwa [pick_of_InB hi]
    | cons b t =>
      rw [bshape_cons] at hi
      obtain ⟨k, j, rfl, hk, hj⟩ := InB_cases hi
      simp only [pick, InB_cons]
      refine ⟨?_, ih h.2 hj⟩
      unfold bdim at hk
      split_ifs at hk ⊢ <;> omega

/-- Two results agree: both raise, or both have the same shape and entries. -/
structure Tensor.Same (x y : Tensor ℝ) : Prop where
  err : x.err = none ↔ y.err = none
  shape : x.err = none → x.shape = y.shape
  get : x.err = none → ∀ i, InB x.shape i → x.get i = y.get i

theorem Tensor.Same.refl (x : Tensor ℝ) : x.Same x := ⟨Iff.rfl, fun _ => rfl, fun _ _ _ => rfl⟩

theorem Tensor.Same.trans {x y z : Tensor ℝ} (h : x.Same y) (h' : y.Same z) : x.Same z where
  err := h.err.trans h'.err
  shape hx := (h.shape hx).trans (h'.shape (h.err.1 hx))
  get hx i hi := (h.get hx i hi).trans (h'.get (h.err.1 hx) i (h.shape hx ▸ hi))

theorem Tensor.Same.symm {x y : Tensor ℝ} (h : x.Same y) : y.Same x where
  err := h.err.symm
  shape hy := (h.shape (h.err.2 hy)).symm
  get hy i hi := (h.get (h.err.2 hy) i (by rw [h.shape (h.err.2 hy)]; exact hi)).symm

theorem add_noErr {x y : Tensor ℝ} :
    (x + y).err = none ↔ x.err = none ∧ y.err = none ∧ bcompat x.shape y.shape := by
  simp only [add_err, orErr_eq_none, bErr_eq_none, and_assoc]

theorem Tensor.Same.add_right {x y : Tensor ℝ} (h : x.Same y) (z : Tensor ℝ) :
    (x + z).Same (y + z) where
  err := by
    rw [add_noErr, add_noErr]
    constructor
    · rintro ⟨h1, h2, h3⟩; exact ⟨h.err.1 h1, h2, h.shape h1 ▸ h3⟩
    · rintro ⟨h1, h2, h3⟩; exact ⟨h.err.2 h1, h2, (h.shape (h.err.2 h1)).symm ▸ h3⟩
  shape hx := by
    rw [add_noErr] at hx
    simp only [add_shape, h.shape hx.1]
  get hx i hi := by
    rw [add_noErr] at hx
    simp only [add_get]
    rw [h.get hx.1 _ (InB_pick_left hx.2.2 hi), h.shape hx.1]

theorem add_right_same (x y z : Tensor ℝ) : (x + y + z).Same (x + z + y) where
  err := by
    simp only [add_noErr, add_shape]
    constructor
    · rintro ⟨⟨h1, h2, h3⟩, h4, h5⟩
      rw [bcompat_bshape h3] at h5
      exact ⟨⟨h1, h4, h5.1⟩, h2, (bcompat_bshape h5.1).2 ⟨h3, bcompat_comm.1 h5.2⟩⟩
    · rintro ⟨⟨h1, h2, h3⟩, h4, h5⟩
      rw [bcompat_bshape h3] at h5
      exact ⟨⟨h1, h4, h5.1⟩, h2, (bcompat_bshape h5.1).2 ⟨h3, bcompat_comm.1 h5.2⟩⟩
  shape h := by
    simp only [add_noErr, add_shape] at h ⊢
    obtain ⟨⟨-, -, h3⟩, -, h5⟩ := h
    rw [bcompat_bshape h3] at h5
    exact bshape_right_comm h3 h5.1 h5.2
  get h i hi := by
    simp only [add_noErr, add_shape] at h
    obtain ⟨⟨-, -, h3⟩, -, h5⟩ := h
    rw [bcompat_bshape h3] at h5
    simp only [add_get, add_shape]
    rw [pick_pick_left, pick_pick_right h3, pick_pick_left, pick_pick_right h5.1]
    ring

theorem foldl_same {f : Term → Tensor ℝ} (ts : List Term) {x y : Tensor ℝ} (h : x.Same y) :
    (ts.foldl (fun e t => e + f t) x).Same (ts.foldl (fun e t => e + f t) y) := by
  induction ts generalizing x y with
  | nil => exact h
  | cons t ts ih => exact ih (h.add_right _)

theorem foldl_perm {f : Term → Tensor ℝ} {ts ts' : List Term} (hp : ts.Perm ts') (x : Tensor ℝ) :
    (ts.foldl (fun e t => e + f t) x).Same (ts'.foldl (fun e t => e + f t) x) := by
  induction hp generalizing x with
  | nil => exact .refl _
  | cons t _ ih => exact ih _
  | swap t u l => exact foldl_same _ (add_right_same _ _ _)
  | trans _ _ ih ih' => exact (ih x).trans (ih' x)

/-- Sum of tensors that all have the shape of the start value. -/
theorem foldl_sum {f : Term → Tensor ℝ} {s : Shape} {ts : List Term} (hf : ∀ t ∈ ts, (f t).Ok s)
    {x : Tensor ℝ} (hx : x.Ok s) : (ts.foldl (fun e t => e + f t) x).Ok s ∧ ∀ i, InB s i →
      (ts.foldl (fun e t => e + f t) x).get i = x.get i + (ts.map fun t => (f t).get i).sum := by
  induction ts generalizing x with
  | nil => exact ⟨hx, by simp⟩
  | cons t ts ih =>
    have ht := hf t (by simp)
    have hxt : (x + f t).Ok s := by
      constructor <;> simp [hx.err, hx.shape, ht.err, ht.shape]
    obtain ⟨h1, h2⟩ := ih (fun u hu => hf u (List.mem_cons_of_mem _ hu)) hxt
    refine ⟨h1, fun i hi => ?_⟩
    rw [List.foldl_cons, h2 i hi, add_get, hx.shape, ht.shape, pick_of_InB hi, List.map_cons,
      List.sum_cons]
    ring

/-- The first exception among the summands is reported. -/
theorem foldl_err_of_mem {f : Term → Tensor ℝ} {ts : List Term} {t : Term} (ht : t ∈ ts)
    (hf : (f t).err ≠ none) (x : Tensor ℝ) : (ts.foldl (fun e t => e + f t) x).err ≠ none :=
  fun h => hf ((foldl_add_err f ts x h).2 t ht)

end TadDftd4
