import Mathlib.Analysis.SpecificLimits.Basic
import Mathlib.Algebra.Order.Floor.Ring
import Mathlib.Data.Int.Interval
import Mathlib.Data.Fintype.BigOperators
import Verif.Lemmas.Setup

/-!
# Points in space that keep a distance

At most `(7 ρ / δ)³` points that are at least `δ` apart are within `ρ ≥ δ` of a point; sums of inverse
powers of their distances to a point converge, with bounds that do not depend on the number of points.
-/

open scoped Classical

namespace TadDftd4.Packing

open Finset

variable {ι : Type*} {s : Finset ι} {x : ι → Spec.E3} {δ ρ R : ℝ} {y : Spec.E3}

theorem coord_le (a b : Spec.E3) (c : Fin 3) : |a c - b c| ≤ dist a b := by
  rw [EuclideanSpace.dist_eq, ← Real.sqrt_sq_eq_abs]
  refine Real.sqrt_le_sqrt ?_
  have := Finset.single_le_sum (f := fun c => dist (a c) (b c) ^ 2) (fun _ _ => sq_nonneg _) (mem_univ c)
  simpa [Real.dist_eq, sq_abs] using this

/-- Few points that are `δ` apart are close to a point. -/
theorem card_le (hδ : 0 < δ) (hρ : δ ≤ ρ) (hs : ∀ i ∈ s, ∀ j ∈ s, i ≠ j → δ ≤ dist (x i) (x j))
    (hb : ∀ i ∈ s, dist (x i) y ≤ ρ) : (s.card : ℝ) ≤ (7 * ρ / δ) ^ 3 := by
  set f : ι → Fin 3 → ℤ := fun i c => ⌊(x i c - y c) * (2 / δ)⌋ with hf
  set m : ℤ := ⌈ρ * (2 / δ)⌉ with hm
  have h2 : 0 < 2 / δ := by positivity
  have hinj : Set.InjOn f s := by
    intro i hi j hj hij
    by_contra hne
    have hd := hs i hi j hj hne
    have hc : ∀ c, (x i c - x j c) ^ 2 ≤ δ ^ 2 / 4 := by
      intro c
      have h1 := congrFun hij c
      simp only [hf] at h1
      have h3 := Int.abs_sub_lt_one_of_floor_eq_floor h1
      have h4 : |x i c - x j c| * (2 / δ) < 1 := by
        have e : (x i c - y c) * (2 / δ) - (x j c - y c) * (2 / δ) = (x i c - x j c) * (2 / δ) := by ring
        rwa [e, abs_mul, abs_of_pos h2] at h3
      have h5 : |x i c - x j c| < δ / 2 := by
        rw [← lt_div_iff₀ h2] at h4
        simpa using h4
      rw [← sq_abs]
      have := abs_nonneg (x i c - x j c)
      nlinarith
    have : dist (x i) (x j) ^ 2 ≤ 3 / 4 * δ ^ 2 := by
      rw [EuclideanSpace.dist_eq, Real.sq_sqrt (Finset.sum_nonneg fun _ _ => sq_nonneg _)]
      simp only [Fin.sum_univ_three, Real.dist_eq, sq_abs]
      linarith [hc 0, hc 1, hc 2]
    nlinarith
  have hmaps : ∀ i ∈ s, f i ∈ Fintype.piFinset fun _ : Fin 3 => Finset.Icc (-m) m := by
    intro i hi
    rw [Fintype.mem_piFinset]
    intro c
    have h1 := abs_le.1 ((coord_le (x i) y c).trans (hb i hi))
    rw [Finset.mem_Icc]
    constructor
    · rw [hm, ← Int.floor_neg]
      refine Int.floor_le_floor ?_
      nlinarith
    · refine (Int.floor_le_ceil _).trans (Int.ceil_le_ceil ?_)
      nlinarith
  have hcard := Finset.card_le_card_of_injOn f hmaps hinj
  rw [Fintype.card_piFinset] at hcard
  have hm0 : 0 ≤ m := Int.ceil_nonneg (mul_nonneg (hδ.le.trans hρ) h2.le)
  have hIcc : ((Finset.Icc (-m) m).card : ℝ) = 2 * m + 1 := by
    rw [Int.card_Icc]
    have : ((m + 1 - -m).toNat : ℤ) = 2 * m + 1 := by rw [Int.toNat_of_nonneg (by omega)]; ring
    exact_mod_cast this
  have hle : (2 * (m : ℝ) + 1) ≤ 7 * ρ / δ := by
    have h1 : (m : ℝ) < ρ * (2 / δ) + 1 := Int.ceil_lt_add_one _
    have h3 : 1 ≤ ρ / δ := (one_le_div hδ).2 hρ
    have e1 : ρ * (2 / δ) = 2 * (ρ / δ) := by ring
    have e2 : 7 * ρ / δ = 7 * (ρ / δ) := by ring
    rw [e1] at h1
    rw [e2]
    linarith
  calc (s.card : ℝ) ≤ ((∏ _c : Fin 3, (Finset.Icc (-m) m).card : ℕ) : ℝ) := by exact_mod_cast hcard
    _ = (2 * (m : ℝ) + 1) ^ 3 := by
        rw [Nat.cast_prod]
        simp only [hIcc, Finset.prod_const, Finset.card_univ, Fintype.card_fin]
    _ ≤ _ := pow_le_pow_left₀ (by positivity) hle 3

/-- Inverse fourth powers of distances. -/
theorem sum_four_le (hδ : 0 < δ) (hR : δ ≤ R) (hs : ∀ i ∈ s, ∀ j ∈ s, i ≠ j → δ ≤ dist (x i) (x j))
    (hb : ∀ i ∈ s, R ≤ dist (x i) y) : ∑ i ∈ s, 1 / dist (x i) y ^ 4 ≤ 5488 / (δ ^ 3 * R) := by
  have hR0 : 0 < R := hδ.trans_le hR
  obtain ⟨N, hN⟩ := pow_unbounded_of_one_lt ((∑ i ∈ s, dist (x i) y) / R) (one_lt_two (α := ℝ))
  rw [div_lt_iff₀ hR0] at hN
  have hlt : ∀ i ∈ s, dist (x i) y < 2 ^ N * R := fun i hi =>
    (Finset.single_le_sum (f := fun i => dist (x i) y) (fun _ _ => dist_nonneg) hi).trans_lt hN
  have hterm : ∀ i ∈ s, 1 / dist (x i) y ^ 4 ≤
      ∑ k ∈ range N, if dist (x i) y < 2 ^ (k + 1) * R then 1 / (2 ^ k * R) ^ 4 else 0 := by
    intro i hi
    have hN0 : N ≠ 0 := by
      rintro rfl
      have := hlt i hi
      have := hb i hi
      simp only [pow_zero, one_mul] at *
      linarith
    have hex : ∃ k, dist (x i) y < 2 ^ (k + 1) * R := ⟨N, (hlt i hi).trans_le
      (mul_le_mul_of_nonneg_right (pow_le_pow_right₀ one_le_two (Nat.le_succ N)) hR0.le)⟩
    have hk := Nat.find_spec hex
    have hkN : Nat.find hex < N := by
      have : Nat.find hex ≤ N - 1 := Nat.find_min' hex (by
        rw [Nat.sub_add_cancel (Nat.one_le_iff_ne_zero.2 hN0)]; exact hlt i hi)
      omega
    have hlow : 2 ^ Nat.find hex * R ≤ dist (x i) y := by
      rcases Nat.eq_zero_or_pos (Nat.find hex) with h0 | h0
      · rw [h0, pow_zero, one_mul]; exact hb i hi
      · have := Nat.find_min hex (m := Nat.find hex - 1) (by omega)
        rw [Nat.sub_add_cancel h0, not_lt] at this
        exact this
    refine le_trans ?_ (Finset.single_le_sum (f := fun k => if dist (x i) y < 2 ^ (k + 1) * R then
      1 / (2 ^ k * R) ^ 4 else 0) (fun k _ => ?_) (mem_range.2 hkN))
    · simp only [if_pos hk]
      exact one_div_le_one_div_of_le (by positivity) (pow_le_pow_left₀ (by positivity) hlow 4)
    · split_ifs
      · positivity
      · exact le_rfl
  calc ∑ i ∈ s, 1 / dist (x i) y ^ 4
      ≤ ∑ i ∈ s, ∑ k ∈ range N, (if dist (x i) y < 2 ^ (k + 1) * R then 1 / (2 ^ k * R) ^ 4 else 0) :=
        Finset.sum_le_sum hterm
    _ = ∑ k ∈ range N, ∑ i ∈ s, (if dist (x i) y < 2 ^ (k + 1) * R then 1 / (2 ^ k * R) ^ 4 else 0) :=
        Finset.sum_comm
    _ ≤ ∑ k ∈ range N, 2744 / (δ ^ 3 * R) * (1 / 2) ^ k := by
        refine Finset.sum_le_sum fun k _ => ?_
        rw [← Finset.sum_filter, Finset.sum_const, nsmul_eq_mul]
        have h2k : (1 : ℝ) ≤ 2 ^ (k + 1) := one_le_pow₀ one_le_two
        have hc := card_le (s := s.filter fun i => dist (x i) y < 2 ^ (k + 1) * R) (x := x) (y := y) hδ
          (ρ := 2 ^ (k + 1) * R) (hR.trans (le_mul_of_one_le_left hR0.le h2k))
          (fun i hi j hj => hs i (mem_filter.1 hi).1 j (mem_filter.1 hj).1)
          fun i hi => (mem_filter.1 hi).2.le
        refine (mul_le_mul_of_nonneg_right hc (by positivity)).trans (le_of_eq ?_)
        have : (2 : ℝ) ^ k ≠ 0 := by positivity
        rw [one_div_pow]
        field_simp
        ring
    _ = 2744 / (δ ^ 3 * R) * ∑ k ∈ range N, (1 / 2 : ℝ) ^ k := by rw [Finset.mul_sum]
    _ ≤ 2744 / (δ ^ 3 * R) * 2 := by
        refine mul_le_mul_of_nonneg_left ?_ (by positivity)
        rw [geom_sum_eq (by norm_num)]
        have : (0 : ℝ) ≤ (1 / 2) ^ N := by positivity
        have e : ((1 / 2 : ℝ) ^ N - 1) / (1 / 2 - 1) = 2 - 2 * (1 / 2) ^ N := by ring
        rw [e]
        linarith
    _ = _ := by ring

/-- Higher inverse powers of distances. -/
theorem sum_pow_le (hδ : 0 < δ) (hR : δ ≤ R) (hs : ∀ i ∈ s, ∀ j ∈ s, i ≠ j → δ ≤ dist (x i) (x j))
    (hb : ∀ i ∈ s, R ≤ dist (x i) y) (p : ℕ) :
    ∑ i ∈ s, 1 / dist (x i) y ^ (4 + p) ≤ 5488 / (δ ^ 3 * R ^ (1 + p)) := by
  have hR0 : 0 < R := hδ.trans_le hR
  calc ∑ i ∈ s, 1 / dist (x i) y ^ (4 + p) ≤ ∑ i ∈ s, 1 / R ^ p * (1 / dist (x i) y ^ 4) := by
        refine Finset.sum_le_sum fun i hi => ?_
        have h := hb i hi
        have hd : 0 < dist (x i) y := hR0.trans_le h
        rw [one_div_mul_one_div, pow_add, mul_comm (R ^ p)]
        exact one_div_le_one_div_of_le (by positivity) (mul_le_mul_of_nonneg_left
          (pow_le_pow_left₀ hR0.le h p) (by positivity))
    _ = 1 / R ^ p * ∑ i ∈ s, 1 / dist (x i) y ^ 4 := by rw [Finset.mul_sum]
    _ ≤ 1 / R ^ p * (5488 / (δ ^ 3 * R)) :=
        mul_le_mul_of_nonneg_left (sum_four_le hδ hR hs hb) (by positivity)
    _ = _ := by field_simp; ring

/-! ## Triangles -/

/-- Two sides of a triangle, the shorter one in the fourth and the other one in the fifth power. -/
theorem side_le {a b c : ℝ} (ha : 0 < a) (hab : a ≤ b) (hbc : b ≤ c) : 1 / (a * b * c) ^ 3 ≤ 1 / a ^ 4 * (1 / b ^ 5) := by
  have hb : 0 < b := ha.trans_le hab
  rw [one_div_mul_one_div]
  refine one_div_le_one_div_of_le (by positivity) ?_
  calc a ^ 4 * b ^ 5 = a ^ 3 * b ^ 5 * a := by ring
    _ ≤ a ^ 3 * b ^ 5 * b := mul_le_mul_of_nonneg_left hab (by positivity)
    _ = (a * b) ^ 3 * b ^ 3 := by ring
    _ ≤ (a * b) ^ 3 * c ^ 3 := mul_le_mul_of_nonneg_left (pow_le_pow_left₀ hb.le hbc 3) (by positivity)
    _ = (a * b * c) ^ 3 := by ring

/-- `1 / u ^ 5` from `R` on -/
noncomputable def tail (R u : ℝ) : ℝ := if R ≤ u then 1 / u ^ 5 else 0

theorem tail_nonneg {u : ℝ} (hu : 0 ≤ u) : 0 ≤ tail R u := by
  unfold tail
  split_ifs
  · positivity
  · exact le_rfl

theorem triangle_le {a b c : ℝ} (ha : 0 < a) (hb : 0 < b) (hc : 0 < c) (h1 : a ≤ b + c) (h2 : b ≤ a + c)
    (h3 : c ≤ a + b) (h : 2 * R ≤ a ∨ 2 * R ≤ b ∨ 2 * R ≤ c) :
    1 / (a * b * c) ^ 3 ≤ 1 / a ^ 4 * tail R b + 1 / a ^ 4 * tail R c + 1 / b ^ 4 * tail R a +
      1 / b ^ 4 * tail R c + 1 / c ^ 4 * tail R a + 1 / c ^ 4 * tail R b := by
  have key : ∀ u v w : ℝ, 0 < u → u ≤ v → v ≤ w → w ≤ u + v → 2 * R ≤ w →
      1 / (u * v * w) ^ 3 ≤ 1 / u ^ 4 * tail R v := by
    intro u v w hu huv hvw hw hR
    rw [tail, if_pos (by linarith)]
    exact side_le hu huv hvw
  have n : ∀ u v : ℝ, 0 < u → 0 < v → 0 ≤ 1 / u ^ 4 * tail R v := fun u v hu hv =>
    mul_nonneg (by positivity) (tail_nonneg hv.le)
  have nab := n a b ha hb
  have nac := n a c ha hc
  have nba := n b a hb ha
  have nbc := n b c hb hc
  have nca := n c a hc ha
  have ncb := n c b hc hb
  rcases le_total a b with hab | hab <;> rcases le_total b c with hbc | hbc <;> rcases le_total a c with hac | hac
  · have := key a b c ha hab hbc h3 (by rcases h with h | h | h <;> linarith)
    linarith
  · have := key a b c ha hab hbc h3 (by rcases h with h | h | h <;> linarith)
    linarith
  · have := key a c b ha hac hbc h2 (by rcases h with h | h | h <;> linarith)
    rw [show a * c * b = a * b * c by ring] at this
    linarith
  · have := key c a b hc hac hab (by linarith) (by rcases h with h | h | h <;> linarith)
    rw [show c * a * b = a * b * c by ring] at this
    linarith
  · have := key b a c hb hab hac (by linarith) (by rcases h with h | h | h <;> linarith)
    rw [show b * a * c = a * b * c by ring] at this
    linarith
  · have := key b c a hb hbc hac (by linarith) (by rcases h with h | h | h <;> linarith)
    rw [show b * c * a = a * b * c by ring] at this
    linarith
  · have := key c b a hc hbc hab (by linarith) (by rcases h with h | h | h <;> linarith)
    rw [show c * b * a = a * b * c by ring] at this
    linarith
  · have := key c b a hc hbc hab (by linarith) (by rcases h with h | h | h <;> linarith)
    rw [show c * b * a = a * b * c by ring] at this
    linarith

/-- Triangles with a long side. -/
theorem sum_triangles_le (hδ : 0 < δ) (hR : δ ≤ R)
    (hs : ∀ i ∈ s, ∀ j ∈ s, i ≠ j → δ ≤ dist (x i) (x j)) {i : ι} (hi : i ∈ s) :
    ∑ j ∈ s, ∑ k ∈ s, (if i ≠ j ∧ i ≠ k ∧ j ≠ k ∧ (2 * R ≤ dist (x i) (x j) ∨ 2 * R ≤ dist (x j) (x k)) then
      1 / (dist (x i) (x j) * dist (x i) (x k) * dist (x j) (x k)) ^ 3 else 0) ≤
      6 * (5488 / δ ^ 4 * (5488 / (δ ^ 3 * R ^ 2))) := by
  set F := 5488 / δ ^ 4 with hF
  set G := 5488 / (δ ^ 3 * R ^ 2) with hG
  have hR0 : 0 < R := hδ.trans_le hR
  have hF0 : 0 ≤ F := by positivity
  have hG0 : 0 ≤ G := by positivity
  set φ : ι → ι → ℝ := fun a b => if a ≠ b then 1 / dist (x a) (x b) ^ 4 else 0 with hφ
  set γ : ι → ι → ℝ := fun a b => if a ≠ b then tail R (dist (x a) (x b)) else 0 with hγ
  have φ0 : ∀ a b, 0 ≤ φ a b := fun a b => by
    simp only [hφ]
    split_ifs
    · positivity
    · exact le_rfl
  have γ0 : ∀ a b, 0 ≤ γ a b := fun a b => by
    simp only [hγ]
    split_ifs
    · exact tail_nonneg dist_nonneg
    · exact le_rfl
  have φs : ∀ a b, φ a b = φ b a := fun a b => by simp only [hφ, ne_comm (a := a), dist_comm (x a)]
  have γs : ∀ a b, γ a b = γ b a := fun a b => by simp only [hγ, ne_comm (a := a), dist_comm (x a)]
  have hφF : ∀ a ∈ s, ∑ b ∈ s, φ a b ≤ F := by
    intro a ha
    simp only [hφ]
    rw [← Finset.sum_filter]
    have := sum_four_le (s := s.filter fun b => a ≠ b) (x := x) (y := x a) hδ le_rfl
      (fun i hi j hj => hs i (mem_filter.1 hi).1 j (mem_filter.1 hj).1)
      (fun b hb => hs b (mem_filter.1 hb).1 a ha (mem_filter.1 hb).2.symm)
    simp only [dist_comm (x a)]
    refine this.trans (le_of_eq ?_)
    rw [hF]
    congr 1
  have hγG : ∀ a ∈ s, ∑ b ∈ s, γ a b ≤ G := by
    intro a ha
    have e : ∀ b, γ a b = if a ≠ b ∧ R ≤ dist (x b) (x a) then 1 / dist (x b) (x a) ^ (4 + 1) else 0 := by
      intro b
      simp only [hγ, tail, dist_comm (x a)]
      by_cases h1 : a ≠ b <;> by_cases h2 : R ≤ dist (x b) (x a) <;> simp [h1, h2]
    simp only [e]
    rw [← Finset.sum_filter]
    exact sum_pow_le (s := s.filter fun b => a ≠ b ∧ R ≤ dist (x b) (x a)) (x := x) (y := x a) hδ hR
      (fun i hi j hj => hs i (mem_filter.1 hi).1 j (mem_filter.1 hj).1)
      (fun b hb => (mem_filter.1 hb).2.2) 1
  have hle : ∀ j ∈ s, ∀ k ∈ s, (if i ≠ j ∧ i ≠ k ∧ j ≠ k ∧ (2 * R ≤ dist (x i) (x j) ∨ 2 * R ≤ dist (x j) (x k)) then
      1 / (dist (x i) (x j) * dist (x i) (x k) * dist (x j) (x k)) ^ 3 else 0) ≤
      φ i j * γ i k + φ i j * γ j k + φ i k * γ i j + φ i k * γ k j + φ j k * γ i j + φ k j * γ i k := by
    intro j hj k hk
    split_ifs with h
    · obtain ⟨hij, hik, hjk, h⟩ := h
      have e1 := hδ.trans_le (hs i hi j hj hij)
      have e2 := hδ.trans_le (hs i hi k hk hik)
      have e3 := hδ.trans_le (hs j hj k hk hjk)
      have := triangle_le (R := R) e1 e2 e3 (by rw [dist_comm (x j)]; exact dist_triangle _ _ _)
        (dist_triangle _ _ _) (by rw [dist_comm (x i) (x j)]; exact dist_triangle _ _ _) (by tauto)
      rw [φs k j, γs k j]
      simp only [hφ, hγ, if_pos hij, if_pos hik, if_pos hjk]
      linarith
    · have := mul_nonneg (φ0 i j) (γ0 i k)
      have := mul_nonneg (φ0 i j) (γ0 j k)
      have := mul_nonneg (φ0 i k) (γ0 i j)
      have := mul_nonneg (φ0 i k) (γ0 k j)
      have := mul_nonneg (φ0 j k) (γ0 i j)
      have := mul_nonneg (φ0 k j) (γ0 i k)
      linarith
  have prod : ∀ (u : ι → ℝ) (v : ι → ι → ℝ) (U V : ℝ), (∀ j ∈ s, 0 ≤ u j) → (∀ j ∈ s, ∑ k ∈ s, v j k ≤ V) → 0 ≤ V →
      ∑ j ∈ s, u j ≤ U → ∑ j ∈ s, ∑ k ∈ s, u j * v j k ≤ U * V := by
    intro u v U V hu hv hV hU
    calc ∑ j ∈ s, ∑ k ∈ s, u j * v j k = ∑ j ∈ s, u j * ∑ k ∈ s, v j k := by
          refine Finset.sum_congr rfl fun j _ => ?_
          rw [Finset.mul_sum]
      _ ≤ ∑ j ∈ s, u j * V := Finset.sum_le_sum fun j hj => mul_le_mul_of_nonneg_left (hv j hj) (hu j hj)
      _ = (∑ j ∈ s, u j) * V := by rw [Finset.sum_mul]
      _ ≤ _ := mul_le_mul_of_nonneg_right hU hV
  have p1 := prod (φ i) (fun _ k => γ i k) F G (fun _ _ => φ0 _ _) (fun _ _ => hγG i hi) hG0 (hφF i hi)
  have p2 := prod (φ i) γ F G (fun _ _ => φ0 _ _) hγG hG0 (hφF i hi)
  have p3 := prod (γ i) (fun _ k => φ i k) G F (fun _ _ => γ0 _ _) (fun _ _ => hφF i hi) hF0 (hγG i hi)
  have p5 := prod (γ i) φ G F (fun _ _ => γ0 _ _) hφF hF0 (hγG i hi)
  refine (Finset.sum_le_sum fun j hj => Finset.sum_le_sum fun k hk => hle j hj k hk).trans ?_
  simp only [Finset.sum_add_distrib]
  have q3 : ∑ j ∈ s, ∑ k ∈ s, φ i k * γ i j = ∑ j ∈ s, ∑ k ∈ s, γ i j * φ i k :=
    Finset.sum_congr rfl fun _ _ => Finset.sum_congr rfl fun _ _ => mul_comm _ _
  have q4 : ∑ j ∈ s, ∑ k ∈ s, φ i k * γ k j = ∑ j ∈ s, ∑ k ∈ s, φ i j * γ j k := Finset.sum_comm
  have q5 : ∑ j ∈ s, ∑ k ∈ s, φ j k * γ i j = ∑ j ∈ s, ∑ k ∈ s, γ i j * φ j k :=
    Finset.sum_congr rfl fun _ _ => Finset.sum_congr rfl fun _ _ => mul_comm _ _
  have q6 : ∑ j ∈ s, ∑ k ∈ s, φ k j * γ i k = ∑ j ∈ s, ∑ k ∈ s, γ i j * φ j k := by
    rw [Finset.sum_comm, q5]
  rw [q3, q4, q5, q6]
  linarith [mul_comm F G]

end TadDftd4.Packing
