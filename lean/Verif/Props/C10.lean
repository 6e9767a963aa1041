import Verif.Props.C11

/-!
# C10: the three-body cutoff applies to all three sides of a triangle

The code tests the sides `i-j`, `j-k` and again `j-k` (`threebody.py:153-160`), so the property is
false as stated (`C10_all_sides_false`). What holds is proved in the theorems `_partial`.
-/

open scoped Classical

namespace TadDftd4

open Tensor

/-- `P` selects the ordered triples that may contribute to the energies of entry `b`: the C9
coefficients of the others do not matter. -/
def OnlyContribute (env : Env) (numbers : Tensor ℕ) (positions radii : Tensor ℝ) (cut s9 alp : ℝ)
    (n : ℕ) (B : Shape) (b : Idx) (P : Fin n → Fin n → Fin n → Prop) : Prop :=
  ∀ c9 c9' : Tensor ℝ, D3Shapes numbers positions c9 radii n B →
    D3Shapes numbers positions c9' radii n B →
    (∀ i j k, RealTriple numbers b i j k → P i j k →
      c9.get (k.1 :: j.1 :: i.1 :: b) = c9'.get (k.1 :: j.1 :: i.1 :: b)) →
    ∀ i < n, (atmDispersion env numbers positions c9 radii cut .zero s9 alp).get (i :: b) =
      (atmDispersion env numbers positions c9' radii cut .zero s9 alp).get (i :: b)

/-- Distance of two atoms of entry `b`. -/
noncomputable abbrev dAt (positions : Tensor ℝ) (n : ℕ) (b : Idx) (i j : Fin n) : ℝ :=
  dist (coords positions n b i) (coords positions n b j)

/-- The full statement of C10: only triples with all three sides within the cutoff contribute. -/
def AllSidesWithinCutoff : Prop :=
  ∀ (env : Env) (numbers : Tensor ℕ) (positions radii : Tensor ℝ) (cut s9 alp : ℝ) (n : ℕ)
    (B : Shape) (b : Idx), 0 ≤ cut → InB B b → Separated env numbers positions n b →
    OnlyContribute env numbers positions radii cut s9 alp n B b fun i j k =>
      dAt positions n b i j ≤ cut ∧ dAt positions n b i k ≤ cut ∧ dAt positions n b j k ≤ cut

section
variable {env : Env} {numbers : Tensor ℕ} {positions c9 radii : Tensor ℝ} {n : ℕ} {B : Shape}
  {cut cut' s9 alp : ℝ} {b : Idx}

/-- An ordered triple contributes to the energy of its first atom only if its sides `i-j` and `j-k`
are within the cutoff. (Missing for C10: the side `i-k`.) -/
theorem C10_two_sides_partial (hcut : 0 ≤ cut) (hb : InB B b)
    (hsep : Separated env numbers positions n b) :
    OnlyContribute env numbers positions radii cut s9 alp n B b fun i j k =>
      dAt positions n b i j ≤ cut ∧ dAt positions n b j k ≤ cut := by
  intro c9 c9' h h' hc i hi
  rw [C11_energy h hcut hb hsep ⟨i, hi⟩, C11_energy h' hcut hb hsep ⟨i, hi⟩]
  congr 1
  refine Finset.sum_congr rfl fun j _ => Finset.sum_congr rfl fun k _ => ?_
  split_ifs with hm
  · unfold atmAt
    rw [hc _ _ _ hm.1 hm.2]
  · rfl

/-- The full statement holds for systems in which no triangle has exactly one side beyond the
cutoff. (Missing for C10: systems with such triangles.) -/
theorem C10_all_sides_partial (hcut : 0 ≤ cut) (hb : InB B b)
    (hsep : Separated env numbers positions n b)
    (hne : ∀ i j k, RealTriple numbers b i j k → dAt positions n b i j ≤ cut →
      dAt positions n b j k ≤ cut → dAt positions n b i k ≤ cut) :
    OnlyContribute env numbers positions radii cut s9 alp n B b fun i j k =>
      dAt positions n b i j ≤ cut ∧ dAt positions n b i k ≤ cut ∧ dAt positions n b j k ≤ cut := by
  intro c9 c9' h h' hc
  refine C10_two_sides_partial hcut hb hsep c9 c9' h h' fun i j k hm hd => ?_
  exact hc i j k hm ⟨hd.1, hne i j k hm hd.1 hd.2, hd.2⟩

/-- The cutoff is inclusive: while all atoms are within it, it can be enlarged without effect. -/
theorem C10_inclusive_partial (h : D3Shapes numbers positions c9 radii n B) (hcut : 0 ≤ cut)
    (hle : cut ≤ cut') (hb : InB B b) (hsep : Separated env numbers positions n b)
    (hd : ∀ i j : Fin n, numbers.get (i.1 :: b) ≠ 0 → numbers.get (j.1 :: b) ≠ 0 →
      dAt positions n b i j ≤ cut) {i : ℕ} (hi : i < n) :
    (atmDispersion env numbers positions c9 radii cut .zero s9 alp).get (i :: b) =
      (atmDispersion env numbers positions c9 radii cut' .zero s9 alp).get (i :: b) := by
  rw [C11_energy h hcut hb hsep ⟨i, hi⟩, C11_energy h (hcut.trans hle) hb hsep ⟨i, hi⟩]
  congr 1
  refine Finset.sum_congr rfl fun j _ => Finset.sum_congr rfl fun k _ => ?_
  refine ite_iff ?_ rfl rfl
  constructor
  · exact fun hm => ⟨hm.1, hm.2.1.trans hle, hm.2.2.trans hle⟩
  · exact fun hm => ⟨hm.1, hd _ _ hm.1.1 hm.1.2.1, hd _ _ hm.1.2.1 hm.1.2.2.1⟩

end

/-! ## The full statement is false -/

namespace Demo

/-- Three atoms on a line with spacing 3. -/
noncomputable def line : Tensor ℝ := ⟨none, [3, 3], fun
  | [0, 1] => 3
  | [0, 2] => 6
  | _ => 0⟩

theorem line_dist (i j : Fin 3) :
    dAt line 3 [] i j = |3 * ((i.1 : ℝ) - j.1)| := by
  unfold dAt
  rw [EuclideanSpace.dist_eq, ← Real.sqrt_sq_eq_abs]
  congr 1
  fin_cases i <;> fin_cases j <;> simp [coords, line, Fin.sum_univ_three, Real.dist_eq] <;> norm_num

theorem line_separated : Separated env triNum line 3 [] := by
  intro i j _ _ h
  refine (sqrt_eps_le (x := 3) (by norm_num)).trans ?_
  have := line_dist i j
  unfold dAt at this
  rw [this]
  fin_cases i <;> fin_cases j <;> simp at h ⊢ <;> norm_num [abs_le, le_abs]

theorem line_shapes (x : ℝ) : D3Shapes triNum line (full [3, 3, 3] x) (full [3, 3] 1) 3 [] :=
  ⟨⟨rfl, rfl⟩, ⟨rfl, rfl⟩, ⟨rfl, rfl⟩, ⟨rfl, rfl⟩⟩

end Demo

theorem Demo.tri_close (i j : Fin 3) : dAt Demo.tri 3 [] i j ≤ 40 := by
  unfold dAt
  rw [EuclideanSpace.dist_eq, Real.sqrt_le_left (by norm_num)]
  fin_cases i <;> fin_cases j <;> simp [coords, Demo.tri, Fin.sum_univ_three, Real.dist_eq] <;>
    norm_num

/-- The right-angled triangle is within the default cutoff. -/
example : OnlyContribute Demo.env Demo.triNum Demo.tri (full [3, 3] 1) 40 1 16 3 [] [] fun i j k =>
    dAt Demo.tri 3 [] i j ≤ 40 ∧ dAt Demo.tri 3 [] i k ≤ 40 ∧ dAt Demo.tri 3 [] j k ≤ 40 :=
  C10_all_sides_partial (by norm_num) InB_nil Demo.tri_separated fun _ _ _ _ _ _ =>
    Demo.tri_close _ _

example := C10_two_sides_partial (cut := 4) (s9 := 1) (alp := 16) (radii := full [3, 3] 1)
  (by norm_num) InB_nil Demo.line_separated

example := C10_inclusive_partial (cut := 40) (cut' := 100) (s9 := 1) (alp := 16) Demo.tri_shapes
  (by norm_num) (by norm_num) InB_nil Demo.tri_separated (fun i j _ _ => Demo.tri_close i j)
  (i := 1) (by norm_num)

/-- With cutoff 4 no triangle of three atoms on a line with spacing 3 is within the cutoff, but the
three-body energy depends on its C9 coefficient. -/
theorem C10_all_sides_false : ¬ AllSidesWithinCutoff := by
  intro H
  have hs := Demo.line_separated
  have h := H Demo.env Demo.triNum Demo.line (full [3, 3] 1) 4 1 16 3 [] [] (by norm_num) InB_nil hs
    (full [3, 3, 3] 1) (full [3, 3, 3] 0) (Demo.line_shapes 1) (Demo.line_shapes 0) (by
      intro i j k hr hd
      exfalso
      obtain ⟨-, -, -, hij, hik, hjk⟩ := hr
      rw [Demo.line_dist, Demo.line_dist, Demo.line_dist] at hd
      obtain ⟨h1, h2, h3⟩ := hd
      rw [abs_le] at h1 h2 h3
      fin_cases i <;> fin_cases j <;> fin_cases k <;> simp at hij hik hjk h1 h2 h3 <;>
        first | (norm_num at h1; done) | (norm_num at h2; done) | (norm_num at h3; done)) 0 (by norm_num)
  have e := fun x => C11_energy (s9 := 1) (alp := 16) (cut := 4) (Demo.line_shapes x) (by norm_num)
    InB_nil hs (0 : Fin 3)
  simp only [Fin.val_zero] at e
  rw [e 1, e 0] at h
  have d01 : dAt Demo.line 3 [] 0 1 = 3 := by rw [Demo.line_dist]; norm_num
  have d02 : dAt Demo.line 3 [] 0 2 = 6 := by rw [Demo.line_dist]; norm_num
  have d12 : dAt Demo.line 3 [] 1 2 = 3 := by rw [Demo.line_dist]; norm_num
  have d21 : dAt Demo.line 3 [] 2 1 = 3 := by rw [Demo.line_dist]; norm_num
  unfold dAt at d01 d02 d12 d21
  have hr : RealTriple Demo.triNum [] (0 : Fin 3) 1 2 := by
    simp [RealTriple, Demo.triNum]
  have s0 : ∀ x, (∑ j : Fin 3, ∑ k : Fin 3, if RealTriple Demo.triNum [] (0 : Fin 3) j k ∧
      dist (coords Demo.line 3 [] 0) (coords Demo.line 3 [] j) ≤ 4 ∧
      dist (coords Demo.line 3 [] j) (coords Demo.line 3 [] k) ≤ 4 then
      atmAt Demo.line (full [3, 3, 3] x) (full [3, 3] 1) 3 1 16 [] 0 j k else 0) =
      atmAt Demo.line (full [3, 3, 3] x) (full [3, 3] 1) 3 1 16 [] 0 1 2 := by
    intro x
    rw [Finset.sum_eq_single 1, Finset.sum_eq_single 2, if_pos]
    · exact ⟨hr, by rw [d01]; norm_num, by rw [d12]; norm_num⟩
    · intro k _ hk
      rw [if_neg]
      rintro ⟨⟨-, -, -, -, h1, h2⟩, -⟩
      fin_cases k <;> simp at h1 h2 hk
    · simp
    · intro j _ hj
      refine Finset.sum_eq_zero fun k _ => if_neg ?_
      rintro ⟨⟨-, -, -, h1, -, -⟩, h2, -⟩
      fin_cases j
      · simp at h1
      · simp at hj
      · change dist (coords Demo.line 3 [] 0) (coords Demo.line 3 [] 2) ≤ 4 at h2
        rw [d02] at h2
        norm_num at h2
    · simp
  rw [s0, s0] at h
  have n01 : coords Demo.line 3 [] 0 ≠ coords Demo.line 3 [] 1 := by
    rw [← dist_pos, d01]; norm_num
  have n02 : coords Demo.line 3 [] 0 ≠ coords Demo.line 3 [] 2 := by
    rw [← dist_pos, d02]; norm_num
  have n12 : coords Demo.line 3 [] 1 ≠ coords Demo.line 3 [] 2 := by
    rw [← dist_pos, d12]; norm_num
  unfold atmAt Spec.atm at h
  rw [← Spec.cosSides_eq_cos n01.symm n02.symm, ← Spec.cosSides_eq_cos n01 n12.symm,
    ← Spec.cosSides_eq_cos n02 n12, dist_comm (coords Demo.line 3 [] 1) (coords Demo.line 3 [] 0),
    dist_comm (coords Demo.line 3 [] 2) (coords Demo.line 3 [] 0),
    dist_comm (coords Demo.line 3 [] 2) (coords Demo.line 3 [] 1), d01, d02, d12] at h
  have hp : (0 : ℝ) < 1 / (1 + 6 * (1 * 1 * 1 / (3 * 6 * 3)) ^ ((16 : ℝ) / 3)) := by
    have : (0 : ℝ) < (1 * 1 * 1 / (3 * 6 * 3)) ^ ((16 : ℝ) / 3) := Real.rpow_pos_of_pos (by norm_num) _
    positivity
  simp only [full, Spec.cosSides] at h
  set f := 1 / (1 + 6 * (1 * 1 * 1 / (3 * 6 * 3) : ℝ) ^ ((16 : ℝ) / 3))
  norm_num at h
  exact hp.ne' h

end TadDftd4
