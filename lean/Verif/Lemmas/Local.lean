import Verif.Lemmas.Displace

/-!
# Changes of single pair and triple terms, and their sum over a system

The total energy of a system changes at most in proportion to the sum of the changes at its atoms, whatever its size.
-/

set_option linter.unusedSimpArgs false

open scoped Classical

namespace TadDftd4

section
variable {n : ℕ} {P : Spec.D4Par} {c : Cutoff} {env : Env} {T : Tables} {R : RefCfg} {δ w D : ℝ}

theorem c6Max_nonneg : 0 ≤ c6Max env T R := mul_nonneg thopi_pos.le (Finset.sum_nonneg fun w _ =>
    mul_nonneg (trapzWeights_nonneg w) (mul_self_nonneg _))

/-- Bound of the tabulated expectation values. -/
noncomputable def quadSum (T : Tables) : ℝ := ∑ Z ∈ Finset.range T.nZ, |T.r4r2 Z|

theorem quadSum_nonneg : 0 ≤ quadSum T := Finset.sum_nonneg fun _ _ => abs_nonneg _

theorem le_quadSum {Z : ℕ} (hZ : Z < T.nZ) : |T.r4r2 Z| ≤ quadSum T :=
  Finset.single_le_sum (f := fun Z => |T.r4r2 Z|) (fun _ _ => abs_nonneg _) (Finset.mem_range.2 hZ)

/-- Bound of pair terms times the sixth power of the distance. -/
noncomputable def pairConst (env : Env) (T : Tables) (R : RefCfg) (P : Spec.D4Par) (δ : ℝ) : ℝ :=
  (|P.s6| + |P.s8| * (3 * quadSum T * quadSum T) / δ ^ 2 +
    |P.s10| * ((3 * quadSum T * quadSum T) ^ 2 * 49 / 40) / δ ^ 4) * c6Max env T R

/-- Bound of a quarter of triple terms times the cubes of the distances. -/
noncomputable def tripleConst (env : Env) (T : Tables) (R : RefCfg) (P : Spec.D4Par) : ℝ :=
  |P.s9| * √(max (c6Max env T R * c6Max env T R * c6Max env T R) env.eps)

theorem pairConst_nonneg (hδ : 0 ≤ δ) : 0 ≤ pairConst env T R P δ := by
  have := quadSum_nonneg (T := T)
  have := c6Max_nonneg (env := env) (T := T) (R := R)
  unfold pairConst
  positivity

theorem tripleConst_nonneg : 0 ≤ tripleConst env T R P := by
  unfold tripleConst
  positivity

/-- A pair term, if it counts. -/
noncomputable def pairPart (S : Spec.Settings) (M : Spec.Mol n) (i j : Fin n) : ℝ :=
  if M.Z i ≠ 0 ∧ M.Z j ≠ 0 ∧ i ≠ j ∧ M.r S.ε i j ≤ S.cut2 then Spec.pairTerm S M M.atom i j else 0

/-- A triple term, if it counts. -/
noncomputable def triplePart (S : Spec.Settings) (M : Spec.Mol n) (i j k : Fin n) : ℝ :=
  if M.Z i ≠ 0 ∧ M.Z j ≠ 0 ∧ M.Z k ≠ 0 ∧ i ≠ j ∧ i ≠ k ∧ j ≠ k ∧ Spec.withinCut3 S M i j k then
    Spec.tripleTerm S M (Spec.c9 S M.neutral) (Spec.R0 S M) i j k else 0

theorem energy_parts (S : Spec.Settings) (M : Spec.Mol n) (i : Fin n) :
    Spec.energy S M i = -(1 / 2) * ∑ j, pairPart S M i j + 1 / 6 * ∑ j, ∑ k, triplePart S M i j k := rfl

/-- Inverse sixth power of the distance of two real atoms. -/
noncomputable def invSix (Z : Fin n → ℕ) (x : Fin n → Spec.E3) (i j : Fin n) : ℝ :=
  if Z i ≠ 0 ∧ Z j ≠ 0 ∧ i ≠ j then 1 / dist (x i) (x j) ^ 6 else 0

/-- Inverse cubes of the distances of three real atoms. -/
noncomputable def invNine (Z : Fin n → ℕ) (x : Fin n → Spec.E3) (i j k : Fin n) : ℝ :=
  if Z i ≠ 0 ∧ Z j ≠ 0 ∧ Z k ≠ 0 ∧ i ≠ j ∧ i ≠ k ∧ j ≠ k then
    1 / (dist (x i) (x j) * dist (x i) (x k) * dist (x j) (x k)) ^ 3 else 0

theorem pairPart_move (hT : T.Physical R.rq) (hga : 0 ≤ R.ga) (hgc : 0 < R.gc) (ha1 : 0 ≤ P.a1) (ha2 : 0 ≤ P.a2)
    (hδ : √env.eps ≤ δ) {M M' : Spec.Mol n} (hM : SameButPos M M') (hZ : ∀ i, M.Z i < T.nZ)
    (hMQ : ∀ i, M.Q i = T.r4r2 (M.Z i)) (hsp : Spec.Spaced δ M.Z M.pos) (hsp' : Spec.Spaced δ M.Z M'.pos)
    (hs2 : Spec.SameSide c.disp2 M.Z M.pos M'.pos) {h : ℝ} (h0 : 0 ≤ h) {i j : Fin n}
    (di : dist (M.pos i) (M'.pos i) ≤ h) (dj : dist (M.pos j) (M'.pos j) ≤ h) :
    |pairPart (d4Computed env T R P c) M' i j - pairPart (d4Computed env T R P c) M i j| ≤
      pairConst env T R P δ * ((1 + 2 * h / δ) ^ 10 - 1) * invSix M.Z M.pos i j := by
  have hδ0 : 0 < δ := (Real.sqrt_pos.2 env.eps_pos).trans_le hδ
  have hC : 0 ≤ c6Max env T R := c6Max_nonneg
  set C := c6Max env T R with hCdef
  have hQ0 : 0 ≤ quadSum T := quadSum_nonneg
  have hQ : ∀ Z < T.nZ, |T.r4r2 Z| ≤ quadSum T := fun Z hZ => le_quadSum hZ
  set Q := quadSum T with hQdef
  have hA0 : 0 ≤ pairConst env T R P δ := pairConst_nonneg hδ0.le
  set A := pairConst env T R P δ with hA
  set l := 1 + 2 * h / δ with hl
  have hl1 : 1 ≤ l := by
    rw [hl]
    have : 0 ≤ 2 * h / δ := by positivity
    linarith
  have hl10 : 0 ≤ l ^ 10 - 1 := sub_nonneg.2 (one_le_pow₀ hl1)
  set S := d4Computed env T R P c with hS
  have hr : ∀ j k, j ≠ k → M.Z j ≠ 0 → M.Z k ≠ 0 → M.r env.eps j k = dist (M.pos j) (M.pos k) := by
    intro j k hjk hj hk
    rw [Spec.r_eq_max env.eps_pos]
    exact max_eq_left (hδ.trans (hsp j k hjk hj hk))
  have hr' : ∀ j k, j ≠ k → M.Z j ≠ 0 → M.Z k ≠ 0 → M'.r env.eps j k = dist (M'.pos j) (M'.pos k) := by
    intro j k hjk hj hk
    rw [Spec.r_eq_max env.eps_pos]
    exact max_eq_left (hδ.trans (hsp' j k hjk hj hk))
  have hc6 : ∀ a a' : Spec.AtomData, a.Z < T.nZ → a'.Z < T.nZ → c6At env T R a a' ≤ C :=
    fun a a' hA hA' => c6At_le hT hga hgc a a' hA hA'
  have n6 := c6At_nonneg (env := env) (T := T) (R := R)
  have di' : dist (M'.pos i) (M.pos i) ≤ h := by rw [dist_comm]; exact di
  have dj' : dist (M'.pos j) (M.pos j) ≤ h := by rw [dist_comm]; exact dj
  have ea : M'.atom = M.atom := by funext i; unfold Spec.Mol.atom; rw [hM.Z, hM.cn, hM.q]
  unfold pairPart invSix
  rw [hM.Z]
  by_cases hij : M.Z i ≠ 0 ∧ M.Z j ≠ 0 ∧ i ≠ j
  · rw [if_pos hij]
    obtain ⟨hi, hj, hne⟩ := hij
    have hdist := hsp i j hne hi hj
    have hd0 : 0 < dist (M.pos i) (M.pos j) := hδ0.trans_le hdist
    have hside : M'.r S.ε i j ≤ S.cut2 ↔ M.r S.ε i j ≤ S.cut2 := by
      show M'.r env.eps i j ≤ c.disp2 ↔ M.r env.eps i j ≤ c.disp2
      rw [hr i j hne hi hj, hr' i j hne hi hj]
      exact (hs2 i j hne hi hj).symm
    by_cases hc : M.r S.ε i j ≤ S.cut2
    · rw [if_pos ⟨hi, hj, hne, hside.2 hc⟩, if_pos ⟨hi, hj, hne, hc⟩]
      rw [hS, pairFactor_eq, pairFactor_eq, hM.Q, ea, hr i j hne hi hj, hr' i j hne hi hj, ← sub_mul, abs_mul,
        abs_of_nonneg (n6 _ _)]
      have h1 := pairFactor_move (P := P) ha1 ha2 hδ0 hdist (hδ0.trans_le (hsp' i j hne hi hj)) hl1 (sides_factor hδ0 (hsp i j hne hi hj) di dj)
        (sides_factor hδ0 (hsp' i j hne hi hj) di' dj') (x := 3 * M.Q i * M.Q j) (X := 3 * Q * Q) (by
          rw [abs_mul, abs_mul, abs_of_pos (by norm_num : (0 : ℝ) < 3), hMQ, hMQ]
          exact mul_le_mul (mul_le_mul_of_nonneg_left (hQ _ (hZ i)) (by norm_num)) (hQ _ (hZ j)) (abs_nonneg _)
            (by positivity))
      refine (mul_le_mul h1 (hc6 _ _ (hZ i) (hZ j)) (n6 _ _) (mul_nonneg hl10 (by positivity))).trans (le_of_eq ?_)
      rw [hA, pairConst]
      ring
    · rw [if_neg fun h' => hc (hside.1 h'.2.2.2), if_neg fun h' => hc h'.2.2.2, sub_self, abs_zero]
      positivity
  · rw [if_neg hij, if_neg fun h' => hij ⟨h'.1, h'.2.1, h'.2.2.1⟩, if_neg fun h' => hij ⟨h'.1, h'.2.1, h'.2.2.1⟩]
    simp

theorem triplePart_move (hT : T.Physical R.rq) (hga : 0 ≤ R.ga) (hgc : 0 < R.gc) (ha1 : 0 ≤ P.a1) (ha2 : 0 ≤ P.a2)
    (hδ : √env.eps ≤ δ) {M M' : Spec.Mol n} (hM : SameButPos M M') (hZ : ∀ i, M.Z i < T.nZ)
    (hsp : Spec.Spaced δ M.Z M.pos) (hsp' : Spec.Spaced δ M.Z M'.pos)
    (hs3 : Spec.SameSide c.disp3 M.Z M.pos M'.pos) {h : ℝ} (h0 : 0 ≤ h) {i j k : Fin n}
    (di : dist (M.pos i) (M'.pos i) ≤ h) (dj : dist (M.pos j) (M'.pos j) ≤ h) (dk : dist (M.pos k) (M'.pos k) ≤ h) :
    |triplePart (d4Computed env T R P c) M' i j k - triplePart (d4Computed env T R P c) M i j k| ≤
      tripleConst env T R P * (4 * ((1 + 2 * h / δ) ^ (3 * |P.alp / 3| + 9) - 1) + 72 * h / δ) *
        invNine M.Z M.pos i j k := by
  have hδ0 : 0 < δ := (Real.sqrt_pos.2 env.eps_pos).trans_le hδ
  have hC : 0 ≤ c6Max env T R := c6Max_nonneg
  set C := c6Max env T R with hCdef
  have hQ0 : 0 ≤ quadSum T := quadSum_nonneg
  have hQ : ∀ Z < T.nZ, |T.r4r2 Z| ≤ quadSum T := fun Z hZ => le_quadSum hZ
  set Q := quadSum T with hQdef
  have hA30 : 0 ≤ tripleConst env T R P := tripleConst_nonneg
  set A3 := tripleConst env T R P with hA3
  set l := 1 + 2 * h / δ with hl
  have hl1 : 1 ≤ l := by
    rw [hl]
    have : 0 ≤ 2 * h / δ := by positivity
    linarith
  set G := 4 * (l ^ (3 * |P.alp / 3| + 9) - 1) + 72 * h / δ with hG
  have hG0 : 0 ≤ G := by
    have h1 : 1 ≤ l ^ (3 * |P.alp / 3| + 9) := Real.one_le_rpow hl1 (by positivity)
    have h2 : 0 ≤ 72 * h / δ := by positivity
    rw [hG]
    linarith
  set S := d4Computed env T R P c with hS
  have hr : ∀ j k, j ≠ k → M.Z j ≠ 0 → M.Z k ≠ 0 → M.r env.eps j k = dist (M.pos j) (M.pos k) := by
    intro j k hjk hj hk
    rw [Spec.r_eq_max env.eps_pos]
    exact max_eq_left (hδ.trans (hsp j k hjk hj hk))
  have hr' : ∀ j k, j ≠ k → M.Z j ≠ 0 → M.Z k ≠ 0 → M'.r env.eps j k = dist (M'.pos j) (M'.pos k) := by
    intro j k hjk hj hk
    rw [Spec.r_eq_max env.eps_pos]
    exact max_eq_left (hδ.trans (hsp' j k hjk hj hk))
  have hc6 : ∀ a a' : Spec.AtomData, a.Z < T.nZ → a'.Z < T.nZ → c6At env T R a a' ≤ C :=
    fun a a' hA hA' => c6At_le hT hga hgc a a' hA hA'
  have n6 := c6At_nonneg (env := env) (T := T) (R := R)
  have di' : dist (M'.pos i) (M.pos i) ≤ h := by rw [dist_comm]; exact di
  have dj' : dist (M'.pos j) (M.pos j) ≤ h := by rw [dist_comm]; exact dj
  have dk' : dist (M'.pos k) (M.pos k) ≤ h := by rw [dist_comm]; exact dk
  have en : M'.neutral = M.neutral := by funext i; unfold Spec.Mol.neutral; rw [hM.Z, hM.cn]
  have eR : Spec.R0 S M' = Spec.R0 S M := by funext i j; unfold Spec.R0; rw [hM.Q]
  unfold triplePart invNine
  rw [hM.Z]
  by_cases hijk : M.Z i ≠ 0 ∧ M.Z j ≠ 0 ∧ M.Z k ≠ 0 ∧ i ≠ j ∧ i ≠ k ∧ j ≠ k
  · rw [if_pos hijk]
    obtain ⟨hi, hj, hk, nij, nik, njk⟩ := hijk
    have hside : Spec.withinCut3 S M' i j k ↔ Spec.withinCut3 S M i j k := by
      show (M'.r env.eps i j ≤ c.disp3 ∧ M'.r env.eps j k ≤ c.disp3) ↔
        (M.r env.eps i j ≤ c.disp3 ∧ M.r env.eps j k ≤ c.disp3)
      rw [hr i j nij hi hj, hr' i j nij hi hj, hr j k njk hj hk, hr' j k njk hj hk]
      exact and_congr (hs3 i j nij hi hj).symm (hs3 j k njk hj hk).symm
    by_cases hc : Spec.withinCut3 S M i j k
    · rw [if_pos ⟨hi, hj, hk, nij, nik, njk, hside.2 hc⟩, if_pos ⟨hi, hj, hk, nij, nik, njk, hc⟩]
      have pd : ∀ {a b}, a ≠ b → M.Z a ≠ 0 → M.Z b ≠ 0 → 0 < dist (M.pos a) (M.pos b) := fun hab ha hb =>
        hδ0.trans_le (hsp _ _ hab ha hb)
      have pd' : ∀ {a b}, a ≠ b → M.Z a ≠ 0 → M.Z b ≠ 0 → 0 < dist (M'.pos a) (M'.pos b) := fun hab ha hb =>
        hδ0.trans_le (hsp' _ _ hab ha hb)
      have hR0 : ∀ a b, 0 ≤ Spec.R0 S M a b := fun a b => add_nonneg (mul_nonneg ha1 (Real.sqrt_nonneg _)) ha2
      set x := dist (M.pos i) (M.pos j) with hx
      set y := dist (M.pos i) (M.pos k) with hy
      set z := dist (M.pos j) (M.pos k) with hz
      set x' := dist (M'.pos i) (M'.pos j) with hx'
      set y' := dist (M'.pos i) (M'.pos k) with hy'
      set z' := dist (M'.pos j) (M'.pos k) with hz'
      set RR := Spec.R0 S M i j * Spec.R0 S M i k * Spec.R0 S M j k with hRR
      have hRR' : 0 ≤ RR := mul_nonneg (mul_nonneg (hR0 _ _) (hR0 _ _)) (hR0 _ _)
      set C9 := Spec.c9 S M.neutral i j k with hC9
      have e1 : Spec.tripleTerm S M (Spec.c9 S M.neutral) (Spec.R0 S M) i j k =
          P.s9 * C9 * (1 / (1 + 6 * (RR / (x * y * z)) ^ (P.alp / 3)) *
            ((3 * Spec.cosSides x y z * Spec.cosSides x z y * Spec.cosSides y z x + 1) / (x * y * z) ^ 3)) := by
        simp only [Spec.tripleTerm]
        rw [show M.r S.ε i j = x from hr i j nij hi hj, show M.r S.ε i k = y from hr i k nik hi hk,
          show M.r S.ε j k = z from hr j k njk hj hk, mul_assoc (S.s9 * _)]
        rfl
      have e2 : Spec.tripleTerm S M' (Spec.c9 S M'.neutral) (Spec.R0 S M') i j k =
          P.s9 * C9 * (1 / (1 + 6 * (RR / (x' * y' * z')) ^ (P.alp / 3)) *
            ((3 * Spec.cosSides x' y' z' * Spec.cosSides x' z' y' * Spec.cosSides y' z' x' + 1) /
              (x' * y' * z') ^ 3)) := by
        rw [en, eR]
        simp only [Spec.tripleTerm]
        rw [show M'.r S.ε i j = x' from hr' i j nij hi hj, show M'.r S.ε i k = y' from hr' i k nik hi hk,
          show M'.r S.ε j k = z' from hr' j k njk hj hk, mul_assoc (S.s9 * _)]
        rfl
      have ca := cosSides_move hδ0 (hsp i j nij hi hj) (hsp i k nik hi hk) (pd' nij hi hj) (pd' nik hi hk)
        di dj dk
      have cb := cosSides_move hδ0 (hsp j i nij.symm hj hi) (hsp j k njk hj hk) (pd' nij.symm hj hi) (pd' njk hj hk)
        dj di dk
      have cc := cosSides_move hδ0 (hsp k i nik.symm hk hi) (hsp k j njk.symm hk hj) (pd' nik.symm hk hi)
        (pd' njk.symm hk hj) dk di dj
      rw [dist_comm (M.pos j) (M.pos i), dist_comm (M'.pos j) (M'.pos i)] at cb
      rw [dist_comm (M.pos k) (M.pos i), dist_comm (M'.pos k) (M'.pos i), dist_comm (M.pos k) (M.pos j),
        dist_comm (M'.pos k) (M'.pos j)] at cc
      rw [← hx, ← hy, ← hz, ← hx', ← hy', ← hz'] at ca cb cc
      have t1 : z ≤ x + y := by rw [hx, dist_comm]; exact dist_triangle _ _ _
      have t2 : x ≤ y + z := by rw [hz, dist_comm (M.pos j)]; exact dist_triangle _ _ _
      have t3 : y ≤ x + z := dist_triangle _ _ _
      have t1' : z' ≤ x' + y' := by rw [hx', dist_comm]; exact dist_triangle _ _ _
      have t2' : x' ≤ y' + z' := by rw [hz', dist_comm (M'.pos j)]; exact dist_triangle _ _ _
      have t3' : y' ≤ x' + z' := dist_triangle _ _ _
      have px := pd nij hi hj
      have py := pd nik hi hk
      have pz := pd njk hj hk
      have px' := pd' nij hi hj
      have py' := pd' nik hi hk
      have pz' := pd' njk hj hk
      have m1 := Spec.cosSides_abs px py t1 t2 t3
      have m2 := Spec.cosSides_abs px pz t3 (by linarith) (by linarith)
      have m3 := Spec.cosSides_abs py pz t2 (by linarith) (by linarith)
      have m1' := Spec.cosSides_abs px' py' t1' t2' t3'
      have m2' := Spec.cosSides_abs px' pz' t3' (by linarith) (by linarith)
      have m3' := Spec.cosSides_abs py' pz' t2' (by linarith) (by linarith)
      set α := Spec.cosSides x y z
      set β := Spec.cosSides x z y
      set γ := Spec.cosSides y z x
      set α' := Spec.cosSides x' y' z'
      set β' := Spec.cosSides x' z' y'
      set γ' := Spec.cosSides y' z' x'
      have hΘ' := angular_le m1' m2' m3'
      have hΘ := angular_move (by positivity : 0 ≤ 8 * h / δ) ca cb cc m1 m2 m2' m3'
      rw [show 9 * (8 * h / δ) = 72 * h / δ by ring] at hΘ
      have key := tripleShape_move (a := P.alp / 3) hRR' px py pz px' py' pz' hl1 (sides_factor hδ0 (hsp i j nij hi hj) di dj)
        (sides_factor hδ0 (hsp i k nik hi hk) di dk) (sides_factor hδ0 (hsp j k njk hj hk) dj dk) (sides_factor hδ0 (hsp' i j nij hi hj) di' dj') (sides_factor hδ0 (hsp' i k nik hi hk) di' dk') (sides_factor hδ0 (hsp' j k njk hj hk) dj' dk') hΘ' hΘ
      have hC9le : C9 ≤ √(max (C * C * C) env.eps) := by
        show √(max |c6At env T R (M.neutral i) (M.neutral j) * c6At env T R (M.neutral i) (M.neutral k) *
          c6At env T R (M.neutral j) (M.neutral k)| env.eps) ≤ _
        rw [abs_of_nonneg (mul_nonneg (mul_nonneg (n6 _ _) (n6 _ _)) (n6 _ _))]
        refine Real.sqrt_le_sqrt (max_le_max ?_ le_rfl)
        exact mul_le_mul (mul_le_mul (hc6 _ _ (hZ i) (hZ j)) (hc6 _ _ (hZ i) (hZ k)) (n6 _ _) hC)
          (hc6 _ _ (hZ j) (hZ k)) (n6 _ _) (mul_nonneg hC hC)
      have hC90 : 0 ≤ C9 := Spec.rsqrt_nonneg _ _
      rw [e1, e2, ← mul_sub, abs_mul, abs_mul, abs_of_nonneg hC90, mul_assoc A3]
      exact mul_le_mul (mul_le_mul_of_nonneg_left hC9le (abs_nonneg _)) key (abs_nonneg _) hA30
    · rw [if_neg fun h' => hc (hside.1 h'.2.2.2.2.2.2), if_neg fun h' => hc h'.2.2.2.2.2.2, sub_self, abs_zero]
      positivity
  · rw [if_neg hijk, if_neg fun h' => hijk ⟨h'.1, h'.2.1, h'.2.2.1, h'.2.2.2.1, h'.2.2.2.2.1, h'.2.2.2.2.2.1⟩,
      if_neg fun h' => hijk ⟨h'.1, h'.2.1, h'.2.2.1, h'.2.2.2.1, h'.2.2.2.2.1, h'.2.2.2.2.2.1⟩]
    simp

/-! ## Sizes of terms -/

theorem pairPart_le (hT : T.Physical R.rq) (hga : 0 ≤ R.ga) (hgc : 0 < R.gc) (ha1 : 0 ≤ P.a1) (ha2 : 0 ≤ P.a2)
    (hδ : √env.eps ≤ δ) {M : Spec.Mol n} (hZ : ∀ i, M.Z i < T.nZ) (hMQ : ∀ i, M.Q i = T.r4r2 (M.Z i))
    (hsp : Spec.Spaced δ M.Z M.pos) (i j : Fin n) :
    |pairPart (d4Computed env T R P c) M i j| ≤ pairConst env T R P δ * invSix M.Z M.pos i j := by
  have hδ0 : 0 < δ := (Real.sqrt_pos.2 env.eps_pos).trans_le hδ
  have hA0 := pairConst_nonneg (env := env) (T := T) (R := R) (P := P) hδ0.le
  have n6 := c6At_nonneg (env := env) (T := T) (R := R)
  have hQ0 := quadSum_nonneg (T := T)
  unfold pairPart invSix
  by_cases h : M.Z i ≠ 0 ∧ M.Z j ≠ 0 ∧ i ≠ j
  · rw [if_pos h]
    obtain ⟨hi, hj, hij⟩ := h
    have hd := hsp i j hij hi hj
    have hd0 : 0 < dist (M.pos i) (M.pos j) := hδ0.trans_le hd
    split_ifs with hc
    · have hr : M.r env.eps i j = dist (M.pos i) (M.pos j) := by
        rw [Spec.r_eq_max env.eps_pos]
        exact max_eq_left (hδ.trans hd)
      rw [pairFactor_eq, hr, abs_mul, abs_of_nonneg (n6 _ _)]
      have h1 := pairFactor_le (P := P) ha1 ha2 hδ0 hd (x := 3 * M.Q i * M.Q j) (X := 3 * quadSum T * quadSum T) (by
        rw [abs_mul, abs_mul, abs_of_pos (by norm_num : (0 : ℝ) < 3), hMQ, hMQ]
        exact mul_le_mul (mul_le_mul_of_nonneg_left (le_quadSum (hZ i)) (by norm_num)) (le_quadSum (hZ j)) (abs_nonneg _)
          (by positivity))
      refine (mul_le_mul h1 (c6At_le hT hga hgc _ _ (hZ i) (hZ j)) (n6 _ _) (by positivity)).trans (le_of_eq ?_)
      rw [pairConst]
      ring
    · rw [abs_zero]
      positivity
  · rw [if_neg h, if_neg fun h' => h ⟨h'.1, h'.2.1, h'.2.2.1⟩, mul_zero, abs_zero]

theorem triplePart_le (hT : T.Physical R.rq) (hga : 0 ≤ R.ga) (hgc : 0 < R.gc) (ha1 : 0 ≤ P.a1) (ha2 : 0 ≤ P.a2)
    (hδ : √env.eps ≤ δ) {M : Spec.Mol n} (hZ : ∀ i, M.Z i < T.nZ) (hsp : Spec.Spaced δ M.Z M.pos) (i j k : Fin n) :
    |triplePart (d4Computed env T R P c) M i j k| ≤ 4 * tripleConst env T R P * invNine M.Z M.pos i j k := by
  have hA0 := tripleConst_nonneg (env := env) (T := T) (R := R) (P := P)
  have n6 := c6At_nonneg (env := env) (T := T) (R := R)
  have hC := c6Max_nonneg (env := env) (T := T) (R := R)
  have hc6 : ∀ a a' : Spec.AtomData, a.Z < T.nZ → a'.Z < T.nZ → c6At env T R a a' ≤ c6Max env T R :=
    fun a a' hA hA' => c6At_le hT hga hgc a a' hA hA'
  have hr : ∀ j k, j ≠ k → M.Z j ≠ 0 → M.Z k ≠ 0 → M.r env.eps j k = dist (M.pos j) (M.pos k) := by
    intro j k hjk hj hk
    rw [Spec.r_eq_max env.eps_pos]
    exact max_eq_left (hδ.trans (hsp j k hjk hj hk))
  unfold triplePart invNine
  by_cases h : M.Z i ≠ 0 ∧ M.Z j ≠ 0 ∧ M.Z k ≠ 0 ∧ i ≠ j ∧ i ≠ k ∧ j ≠ k
  · rw [if_pos h]
    obtain ⟨hi, hj, hk, h1, h2, h3⟩ := h
    split_ifs with hc
    · have ht := d4_triple_le (env := env) (T := T) (R := R) (c := c) ha1 ha2 M i j k
      simp only at ht
      rw [hr i j h1 hi hj, hr i k h2 hi hk, hr j k h3 hj hk] at ht
      refine ht.trans ?_
      rw [div_eq_mul_one_div, tripleConst, ← mul_assoc 4]
      refine mul_le_mul_of_nonneg_right (mul_le_mul_of_nonneg_left ?_ (by positivity)) (by positivity)
      show √(max |c6At env T R (M.neutral i) (M.neutral j) * c6At env T R (M.neutral i) (M.neutral k) *
        c6At env T R (M.neutral j) (M.neutral k)| env.eps) ≤ _
      rw [abs_of_nonneg (mul_nonneg (mul_nonneg (n6 _ _) (n6 _ _)) (n6 _ _))]
      refine Real.sqrt_le_sqrt (max_le_max ?_ le_rfl)
      exact mul_le_mul (mul_le_mul (hc6 _ _ (hZ i) (hZ j)) (hc6 _ _ (hZ i) (hZ k)) (n6 _ _) hC)
        (hc6 _ _ (hZ j) (hZ k)) (n6 _ _) (mul_nonneg hC hC)
    · rw [abs_zero]
      positivity
  · rw [if_neg h, if_neg fun h' => h ⟨h'.1, h'.2.1, h'.2.2.1, h'.2.2.2.1, h'.2.2.2.2.1, h'.2.2.2.2.2.1⟩, mul_zero, abs_zero]

/-! ## Coordination numbers -/

theorem pairPart_cn (hfl : env.fl = id) (hT : T.Physical R.rq) (hgc : 0 < R.gc) (hB : Spec.CNBounds T R w D)
    (hs : 0 ≤ Spec.cnSlope w D) {M M' : Spec.Mol n} (hM : SameButCN M M') (hZ : ∀ i, M.Z i < T.nZ) {i j : Fin n} {u : ℝ}
    (hu : |M'.cn i - M.cn i| + |M'.cn j - M.cn j| ≤ u) :
    |pairPart (d4Computed env T R P c) M' i j - pairPart (d4Computed env T R P c) M i j| ≤
      (Real.exp (Spec.cnSlope w D * u) - 1) * |pairPart (d4Computed env T R P c) M i j| := by
  have hu0 : 0 ≤ u := le_trans (by positivity) hu
  have er : ∀ ε, M'.r ε i j = M.r ε i j := fun ε => by unfold Spec.Mol.r; rw [hM.pos]
  have ea : ∀ i, M'.atom i = ⟨M.Z i, M'.cn i, M.q i⟩ := fun i => by unfold Spec.Mol.atom; rw [hM.Z, hM.q]
  have key : ∀ f g : Fin n → ℝ, |f i - g i| + |f j - g j| ≤ u → c6At env T R ⟨M.Z i, f i, M.q i⟩ ⟨M.Z j, f j, M.q j⟩ ≤
      Real.exp (Spec.cnSlope w D * u) * c6At env T R ⟨M.Z i, g i, M.q i⟩ ⟨M.Z j, g j, M.q j⟩ := fun f g h =>
    (c6At_cn_factor hfl hT hgc hB (hZ i) (hZ j) (g i) (f i) (g j) (f j) _ _).trans
      (mul_le_mul_of_nonneg_right (Real.exp_le_exp.2 (mul_le_mul_of_nonneg_left h hs)) (c6At_nonneg _ _))
  unfold pairPart
  rw [hM.Z, er]
  split_ifs with h
  · rw [pairFactor_eq, pairFactor_eq, hM.Q, er, ea, ea]
    exact abs_sub_le_of_factor (Real.one_le_exp (by positivity)) (c6At_nonneg _ _) (key M'.cn M.cn hu)
      (key M.cn M'.cn (by rw [abs_sub_comm, abs_sub_comm (M.cn j)]; exact hu))
  · simp

theorem triplePart_cn (hfl : env.fl = id) (hT : T.Physical R.rq) (hgc : 0 < R.gc) (hB : Spec.CNBounds T R w D)
    (hs : 0 ≤ Spec.cnSlope w D) {M M' : Spec.Mol n} (hM : SameButCN M M') (hZ : ∀ i, M.Z i < T.nZ) {i j k : Fin n} {u : ℝ}
    (hu : |M'.cn i - M.cn i| + |M'.cn j - M.cn j| + |M'.cn k - M.cn k| ≤ u) :
    |triplePart (d4Computed env T R P c) M' i j k - triplePart (d4Computed env T R P c) M i j k| ≤
      (Real.exp (3 / 2 * (Spec.cnSlope w D * u)) - 1) * |triplePart (d4Computed env T R P c) M i j k| := by
  have hu0 : 0 ≤ u := le_trans (by positivity) hu
  set S := d4Computed env T R P c with hS
  set F := Real.exp (1 / 2 * (Spec.cnSlope w D * u)) with hF
  have hF1 : 1 ≤ F := Real.one_le_exp (by positivity)
  have e2 : Real.exp (Spec.cnSlope w D * u) = F ^ 2 := by rw [hF, ← Real.exp_nat_mul]; congr 1; push_cast; ring
  have e3 : Real.exp (3 / 2 * (Spec.cnSlope w D * u)) = F ^ 3 := by rw [hF, ← Real.exp_nat_mul]; congr 1; push_cast; ring
  have er : ∀ ε i j, M'.r ε i j = M.r ε i j := fun ε i j => by unfold Spec.Mol.r; rw [hM.pos]
  have en : ∀ i, M'.neutral i = ⟨M.Z i, M'.cn i, 0⟩ := fun i => by unfold Spec.Mol.neutral; rw [hM.Z]
  have eR : Spec.R0 S M' = Spec.R0 S M := by funext i j; unfold Spec.R0; rw [hM.Q]
  have key : ∀ (f g : Fin n → ℝ) (i j : Fin n), |f i - g i| + |f j - g j| ≤ u →
      c6At env T R ⟨M.Z i, f i, 0⟩ ⟨M.Z j, f j, 0⟩ ≤ F ^ 2 * c6At env T R ⟨M.Z i, g i, 0⟩ ⟨M.Z j, g j, 0⟩ := fun f g i j h => by
    rw [← e2]
    exact (c6At_cn_factor hfl hT hgc hB (hZ i) (hZ j) (g i) (f i) (g j) (f j) _ _).trans
      (mul_le_mul_of_nonneg_right (Real.exp_le_exp.2 (mul_le_mul_of_nonneg_left h hs)) (c6At_nonneg _ _))
  have ui := abs_nonneg (M'.cn i - M.cn i)
  have uj := abs_nonneg (M'.cn j - M.cn j)
  have uk := abs_nonneg (M'.cn k - M.cn k)
  have up : ∀ i j, |M'.cn i - M.cn i| + |M'.cn j - M.cn j| ≤ u →
      S.c6 (M'.neutral i) (M'.neutral j) ≤ F ^ 2 * S.c6 (M.neutral i) (M.neutral j) := fun i j h => by
    rw [en, en]
    exact key M'.cn M.cn i j h
  have down : ∀ i j, |M'.cn i - M.cn i| + |M'.cn j - M.cn j| ≤ u →
      S.c6 (M.neutral i) (M.neutral j) ≤ F ^ 2 * S.c6 (M'.neutral i) (M'.neutral j) := fun i j h => by
    rw [en, en]
    exact key M.cn M'.cn i j (by rw [abs_sub_comm, abs_sub_comm (M.cn j)]; exact h)
  have n6 : ∀ (A : Fin n → Spec.AtomData) i j, 0 ≤ S.c6 (A i) (A j) := fun A i j => c6At_nonneg _ _
  have et : ∀ (N : Spec.Mol n) (C : Fin n → Fin n → Fin n → ℝ) (R : Fin n → Fin n → ℝ), Spec.tripleTerm S N C R i j k =
      Spec.tripleTerm S N (fun _ _ _ => 1) R i j k * C i j k := fun N C R => by
    simp only [Spec.tripleTerm]
    ring
  have es : Spec.tripleTerm S M' (fun _ _ _ => 1) (Spec.R0 S M) i j k =
      Spec.tripleTerm S M (fun _ _ _ => 1) (Spec.R0 S M) i j k := by
    simp only [Spec.tripleTerm, er]
  have ew : Spec.withinCut3 S M' i j k = Spec.withinCut3 S M i j k := by unfold Spec.withinCut3; rw [er, er]
  unfold triplePart
  rw [hM.Z, ew, e3]
  split_ifs with h
  · rw [et M' (Spec.c9 S M'.neutral), et M (Spec.c9 S M.neutral), eR, es]
    exact abs_sub_le_of_factor (one_le_pow₀ hF1) (Spec.rsqrt_nonneg _ _)
      (c9_factor hF1 (n6 _) (n6 _) (up i j (by linarith)) (up i k (by linarith)) (up j k (by linarith)) env.eps_pos.le)
      (c9_factor hF1 (n6 _) (n6 _) (down i j (by linarith)) (down i k (by linarith)) (down j k (by linarith))
        env.eps_pos.le)
  · simp

/-! ## Sums over all atoms -/

theorem invSix_comm (Z : Fin n → ℕ) (x : Fin n → Spec.E3) (i j : Fin n) : invSix Z x i j = invSix Z x j i := by
  unfold invSix
  rw [dist_comm]
  exact if_congr ⟨fun h => ⟨h.2.1, h.1, h.2.2.symm⟩, fun h => ⟨h.2.1, h.1, h.2.2.symm⟩⟩ rfl rfl

theorem invNine_swap (Z : Fin n → ℕ) (x : Fin n → Spec.E3) (i j k : Fin n) : invNine Z x i j k = invNine Z x j i k := by
  unfold invNine
  rw [dist_comm (x i) (x j)]
  refine if_congr ⟨fun h => ?_, fun h => ?_⟩ (by ring) rfl <;>
    exact ⟨h.2.1, h.1, h.2.2.1, h.2.2.2.1.symm, h.2.2.2.2.2, h.2.2.2.2.1⟩

theorem invNine_swap' (Z : Fin n → ℕ) (x : Fin n → Spec.E3) (i j k : Fin n) : invNine Z x i j k = invNine Z x i k j := by
  unfold invNine
  rw [dist_comm (x j) (x k)]
  refine if_congr ⟨fun h => ?_, fun h => ?_⟩ (by ring) rfl <;>
    exact ⟨h.1, h.2.2.1, h.2.1, h.2.2.2.2.1, h.2.2.2.1, h.2.2.2.2.2.symm⟩

theorem sum_invSix (Z : Fin n → ℕ) (x : Fin n → Spec.E3) (hδ : 0 < δ) (hsp : Spec.Spaced δ Z x) {u : Fin n → ℝ}
    (hu : ∀ i, 0 ≤ u i) : ∑ i, ∑ j, (u i + u j) * invSix Z x i j ≤ 2 * (5488 / δ ^ 6) * ∑ i, u i := by
  have e : ∑ i, ∑ j, u j * invSix Z x i j = ∑ i, ∑ j, u i * invSix Z x i j := by
    rw [Finset.sum_comm]
    exact Finset.sum_congr rfl fun i _ => Finset.sum_congr rfl fun j _ => by rw [invSix_comm]
  have e' : ∑ i, ∑ j, (u i + u j) * invSix Z x i j = 2 * ∑ i, ∑ j, u i * invSix Z x i j := by
    simp only [add_mul, Finset.sum_add_distrib]
    rw [e]
    ring
  rw [e', mul_assoc]
  refine mul_le_mul_of_nonneg_left ?_ (by norm_num)
  rw [Finset.mul_sum]
  refine Finset.sum_le_sum fun i _ => ?_
  rw [← Finset.mul_sum, mul_comm]
  exact mul_le_mul_of_nonneg_right (spaced_sum_six hδ hsp i) (hu i)

/-- Bound of the sum of inverse cubes over the triangles of an atom. -/
noncomputable def nineSum (δ : ℝ) : ℝ := 6 * (5488 / (δ / 2) ^ 4 * (5488 / ((δ / 2) ^ 3 * (δ / 2) ^ 2)))

theorem sum_invNine (Z : Fin n → ℕ) (x : Fin n → Spec.E3) (hδ : 0 < δ) (hsp : Spec.Spaced δ Z x) {u : Fin n → ℝ}
    (hu : ∀ i, 0 ≤ u i) :
    ∑ i, ∑ j, ∑ k, (u i + u j + u k) * invNine Z x i j k ≤ 3 * nineSum δ * ∑ i, u i := by
  have e1 : ∑ i, ∑ j, ∑ k, u j * invNine Z x i j k = ∑ i, ∑ j, ∑ k, u i * invNine Z x i j k := by
    rw [Finset.sum_comm]
    exact Finset.sum_congr rfl fun i _ => Finset.sum_congr rfl fun j _ => Finset.sum_congr rfl fun k _ => by
      rw [invNine_swap]
  have e2 : ∑ i, ∑ j, ∑ k, u k * invNine Z x i j k = ∑ i, ∑ j, ∑ k, u j * invNine Z x i j k := by
    refine Finset.sum_congr rfl fun i _ => ?_
    rw [Finset.sum_comm]
    exact Finset.sum_congr rfl fun j _ => Finset.sum_congr rfl fun k _ => by rw [invNine_swap']
  have e' : ∑ i, ∑ j, ∑ k, (u i + u j + u k) * invNine Z x i j k = 3 * ∑ i, ∑ j, ∑ k, u i * invNine Z x i j k := by
    simp only [add_mul, Finset.sum_add_distrib]
    rw [e2, e1]
    ring
  rw [e', mul_assoc]
  refine mul_le_mul_of_nonneg_left ?_ (by norm_num)
  rw [Finset.mul_sum]
  refine Finset.sum_le_sum fun i _ => ?_
  simp only [← Finset.mul_sum]
  rw [mul_comm]
  exact mul_le_mul_of_nonneg_right (spaced_sum_triangles hδ hsp i) (hu i)

/-- If pair and triple terms change in proportion to changes at their atoms, the energies of all atoms together change
in proportion to the sum of the changes. -/
theorem sum_energy_le {S : Spec.Settings} {M M' : Spec.Mol n} {Z : Fin n → ℕ} {x : Fin n → Spec.E3} (hδ : 0 < δ)
    (hsp : Spec.Spaced δ Z x) {u : Fin n → ℝ} (hu : ∀ i, 0 ≤ u i) {a t : ℝ} (ha : 0 ≤ a) (ht : 0 ≤ t)
    (h2 : ∀ i j, |pairPart S M' i j - pairPart S M i j| ≤ a * ((u i + u j) * invSix Z x i j))
    (h3 : ∀ i j k, |triplePart S M' i j k - triplePart S M i j k| ≤ t * ((u i + u j + u k) * invNine Z x i j k)) :
    ∑ i, |Spec.energy S M' i - Spec.energy S M i| ≤ (a * (5488 / δ ^ 6) + t * (nineSum δ / 2)) * ∑ i, u i := by
  have h : ∀ i, |Spec.energy S M' i - Spec.energy S M i| ≤ 1 / 2 * (a * ∑ j, (u i + u j) * invSix Z x i j) +
      1 / 6 * (t * ∑ j, ∑ k, (u i + u j + u k) * invNine Z x i j k) := by
    intro i
    rw [energy_parts, energy_parts, add_sub_add_comm, ← mul_sub, ← mul_sub]
    refine (abs_add_le _ _).trans (add_le_add ?_ ?_)
    · rw [abs_mul, show |(-(1 / 2) : ℝ)| = 1 / 2 by norm_num, ← Finset.sum_sub_distrib, Finset.mul_sum]
      exact mul_le_mul_of_nonneg_left ((Finset.abs_sum_le_sum_abs _ _).trans (Finset.sum_le_sum fun j _ => h2 i j))
        (by norm_num)
    · rw [abs_mul, show |(1 / 6 : ℝ)| = 1 / 6 by norm_num, ← Finset.sum_sub_distrib, Finset.mul_sum]
      refine mul_le_mul_of_nonneg_left ((Finset.abs_sum_le_sum_abs _ _).trans (Finset.sum_le_sum fun j _ => ?_))
        (by norm_num)
      rw [← Finset.sum_sub_distrib, Finset.mul_sum]
      exact (Finset.abs_sum_le_sum_abs _ _).trans (Finset.sum_le_sum fun k _ => h3 i j k)
  refine (Finset.sum_le_sum fun i _ => h i).trans ?_
  rw [Finset.sum_add_distrib, ← Finset.mul_sum, ← Finset.mul_sum, ← Finset.mul_sum, ← Finset.mul_sum]
  have g2 := mul_le_mul_of_nonneg_left (sum_invSix Z x hδ hsp hu) ha
  have g3 := mul_le_mul_of_nonneg_left (sum_invNine Z x hδ hsp hu) ht
  have e : (a * (5488 / δ ^ 6) + t * (nineSum δ / 2)) * ∑ i, u i =
      1 / 2 * (a * (2 * (5488 / δ ^ 6) * ∑ i, u i)) + 1 / 6 * (t * (3 * nineSum δ * ∑ i, u i)) := by ring
  rw [e]
  linarith

theorem nineSum_nonneg (hδ : 0 < δ) : 0 ≤ nineSum δ := by
  unfold nineSum
  positivity

theorem rpow_lin' {h N : ℝ} (hδ : 0 < δ) (h0 : 0 ≤ h) (hh : h ≤ 3 * δ) (hN : 0 ≤ N) :
    (1 + 2 * h / δ) ^ N - 1 ≤ 2 * N / δ * Real.exp (6 * N) * h := by
  have hx : 0 ≤ 2 * h / δ := by positivity
  set t := 2 * h / δ * N with ht
  have ht0 : 0 ≤ t := by positivity
  have h1 : (1 + 2 * h / δ) ^ N ≤ Real.exp t := by
    rw [ht, Real.exp_mul]
    exact Real.rpow_le_rpow (by positivity) (by linarith [Real.add_one_le_exp (2 * h / δ)]) hN
  have h2 : Real.exp t - 1 ≤ t * Real.exp t := by
    have := Real.add_one_le_exp (-t)
    have h3 : Real.exp (-t) * Real.exp t = 1 := by rw [← Real.exp_add]; simp
    nlinarith [Real.exp_pos t]
  have h3 : t ≤ 6 * N := by
    rw [ht, div_mul_eq_mul_div, div_le_iff₀ hδ]
    nlinarith
  calc _ ≤ t * Real.exp t := by linarith
    _ ≤ t * Real.exp (6 * N) := mul_le_mul_of_nonneg_left (Real.exp_le_exp.2 h3) ht0
    _ = _ := by rw [ht]; ring

theorem exp_lin {x B : ℝ} (h0 : 0 ≤ x) (hx : x ≤ B) : Real.exp x - 1 ≤ Real.exp B * x := by
  have h2 : Real.exp x - 1 ≤ x * Real.exp x := by
    have := Real.add_one_le_exp (-x)
    have h3 : Real.exp (-x) * Real.exp x = 1 := by rw [← Real.exp_add]; simp
    nlinarith [Real.exp_pos x]
  have h3 : x * Real.exp x ≤ x * Real.exp B := mul_le_mul_of_nonneg_left (Real.exp_le_exp.2 hx) h0
  linarith

/-- The sum of a quantity over the real atoms of a system. -/
noncomputable def Spec.sumReal (Z : Fin n → ℕ) (f : Fin n → ℝ) : ℝ := ∑ j, if Z j ≠ 0 then f j else 0

theorem pairPart_pad {S : Spec.Settings} {M : Spec.Mol n} {i j : Fin n} (h : M.Z i = 0 ∨ M.Z j = 0) :
    pairPart S M i j = 0 := if_neg fun h' => h.elim h'.1 h'.2.1

theorem triplePart_pad {S : Spec.Settings} {M : Spec.Mol n} {i j k : Fin n} (h : M.Z i = 0 ∨ M.Z j = 0 ∨ M.Z k = 0) :
    triplePart S M i j k = 0 := if_neg fun h' => h.elim h'.1 fun h => h.elim h'.2.1 h'.2.2.1

theorem invSix_nonneg (Z : Fin n → ℕ) (x : Fin n → Spec.E3) (i j : Fin n) : 0 ≤ invSix Z x i j := by
  unfold invSix
  split_ifs
  · positivity
  · exact le_rfl

theorem invNine_nonneg (Z : Fin n → ℕ) (x : Fin n → Spec.E3) (i j k : Fin n) : 0 ≤ invNine Z x i j k := by
  unfold invNine
  split_ifs
  · positivity
  · exact le_rfl

/-- Displacements. -/
theorem energy_move_sum (hT : T.Physical R.rq) (hga : 0 ≤ R.ga) (hgc : 0 < R.gc) (ha1 : 0 ≤ P.a1) (ha2 : 0 ≤ P.a2)
    (hδ : √env.eps ≤ δ) : ∃ K : ℝ, 0 ≤ K ∧ ∀ (n : ℕ) (M M' : Spec.Mol n) (c : Cutoff), SameButPos M M' →
      (∀ i, M.Z i < T.nZ) → (∀ i, M.Q i = T.r4r2 (M.Z i)) → Spec.Spaced δ M.Z M.pos → Spec.Spaced δ M.Z M'.pos →
      Spec.SameSide c.disp2 M.Z M.pos M'.pos → Spec.SameSide c.disp3 M.Z M.pos M'.pos →
      (∀ i, M.Z i ≠ 0 → dist (M.pos i) (M'.pos i) ≤ δ) →
      ∑ i, |Spec.energy (d4Computed env T R P c) M' i - Spec.energy (d4Computed env T R P c) M i| ≤
        K * Spec.sumReal M.Z fun j => dist (M.pos j) (M'.pos j) := by
  have hδ0 : 0 < δ := (Real.sqrt_pos.2 env.eps_pos).trans_le hδ
  have hA0 := pairConst_nonneg (env := env) (T := T) (R := R) (P := P) hδ0.le
  have hA3 := tripleConst_nonneg (env := env) (T := T) (R := R) (P := P)
  have hn9 := nineSum_nonneg hδ0
  set N := 3 * |P.alp / 3| + 9 with hN
  have hN0 : 0 ≤ N := by positivity
  set a := pairConst env T R P δ * (2 * 10 / δ * Real.exp (6 * 10)) with ha
  set t := tripleConst env T R P * (4 * (2 * N / δ * Real.exp (6 * N)) + 72 / δ) with ht
  have ha0 : 0 ≤ a := by positivity
  have ht0 : 0 ≤ t := by positivity
  refine ⟨a * (5488 / δ ^ 6) + t * (nineSum δ / 2), by positivity,
    fun n M M' c hM hZ hMQ hsp hsp' hs2 hs3 hd => ?_⟩
  have hu : ∀ i, 0 ≤ (if M.Z i ≠ 0 then dist (M.pos i) (M'.pos i) else 0) := fun i => by
    split_ifs
    · exact dist_nonneg
    · exact le_rfl
  refine sum_energy_le hδ0 hsp hu ha0 ht0 (fun i j => ?_) (fun i j k => ?_)
  · by_cases hij : M.Z i = 0 ∨ M.Z j = 0
    · rw [pairPart_pad hij, pairPart_pad (by rw [hM.Z]; exact hij), sub_self, abs_zero]
      exact mul_nonneg ha0 (mul_nonneg (add_nonneg (hu i) (hu j)) (invSix_nonneg _ _ _ _))
    · push Not at hij
      rw [if_pos hij.1, if_pos hij.2]
      have di := hd i hij.1
      have dj := hd j hij.2
      have pi := dist_nonneg (x := M.pos i) (y := M'.pos i)
      have pj := dist_nonneg (x := M.pos j) (y := M'.pos j)
      have h1 := pairPart_move (c := c) hT hga hgc ha1 ha2 hδ hM hZ hMQ hsp hsp' hs2 (add_nonneg pi pj)
        (i := i) (j := j) (by linarith) (by linarith)
      refine h1.trans ?_
      have e10 : (1 + 2 * (dist (M.pos i) (M'.pos i) + dist (M.pos j) (M'.pos j)) / δ) ^ 10 =
          (1 + 2 * (dist (M.pos i) (M'.pos i) + dist (M.pos j) (M'.pos j)) / δ) ^ (10 : ℝ) := by
        exact_mod_cast (Real.rpow_natCast _ 10).symm
      have h2 := rpow_lin' hδ0 (add_nonneg pi pj) (by linarith) (show (0 : ℝ) ≤ 10 by norm_num)
      rw [e10, ← mul_assoc]
      refine mul_le_mul_of_nonneg_right ?_ (invSix_nonneg _ _ _ _)
      rw [ha, mul_assoc]
      exact mul_le_mul_of_nonneg_left h2 hA0
  · by_cases hij : M.Z i = 0 ∨ M.Z j = 0 ∨ M.Z k = 0
    · rw [triplePart_pad hij, triplePart_pad (by rw [hM.Z]; exact hij), sub_self, abs_zero]
      exact mul_nonneg ht0 (mul_nonneg (add_nonneg (add_nonneg (hu i) (hu j)) (hu k)) (invNine_nonneg _ _ _ _ _))
    · push Not at hij
      rw [if_pos hij.1, if_pos hij.2.1, if_pos hij.2.2]
      have di := hd i hij.1
      have dj := hd j hij.2.1
      have dk := hd k hij.2.2
      have pi := dist_nonneg (x := M.pos i) (y := M'.pos i)
      have pj := dist_nonneg (x := M.pos j) (y := M'.pos j)
      have pk := dist_nonneg (x := M.pos k) (y := M'.pos k)
      set h := dist (M.pos i) (M'.pos i) + dist (M.pos j) (M'.pos j) + dist (M.pos k) (M'.pos k) with hh
      have h0 : 0 ≤ h := by positivity
      have h1 := triplePart_move (c := c) hT hga hgc ha1 ha2 hδ hM hZ hsp hsp' hs3 h0
        (i := i) (j := j) (k := k) (by linarith) (by linarith) (by linarith)
      refine h1.trans ?_
      have h2 := rpow_lin' hδ0 h0 (by linarith) hN0
      rw [← hN, ← mul_assoc]
      refine mul_le_mul_of_nonneg_right ?_ (invNine_nonneg _ _ _ _ _)
      rw [ht, mul_assoc]
      refine mul_le_mul_of_nonneg_left ?_ hA3
      have e : (4 * (2 * N / δ * Real.exp (6 * N)) + 72 / δ) * h =
          4 * (2 * N / δ * Real.exp (6 * N) * h) + 72 * h / δ := by ring
      rw [e]
      linarith

/-- Coordination numbers. -/
theorem energy_cn_sum (hfl : env.fl = id) (hT : T.Physical R.rq) (hga : 0 ≤ R.ga) (hgc : 0 < R.gc)
    (hB : Spec.CNBounds T R w D) (ha1 : 0 ≤ P.a1) (ha2 : 0 ≤ P.a2) (hδ : √env.eps ≤ δ) (hs : 0 ≤ Spec.cnSlope w D) :
    ∃ K : ℝ, 0 ≤ K ∧ ∀ (n : ℕ) (M M' : Spec.Mol n) (c : Cutoff), SameButCN M M' →
      (∀ i, M.Z i < T.nZ) → (∀ i, M.Q i = T.r4r2 (M.Z i)) → Spec.Spaced δ M.Z M.pos →
      (∀ i, M.Z i ≠ 0 → |M'.cn i - M.cn i| ≤ 1) →
      ∑ i, |Spec.energy (d4Computed env T R P c) M' i - Spec.energy (d4Computed env T R P c) M i| ≤
        K * Spec.sumReal M.Z fun j => |M'.cn j - M.cn j| := by
  have hδ0 : 0 < δ := (Real.sqrt_pos.2 env.eps_pos).trans_le hδ
  have hA0 := pairConst_nonneg (env := env) (T := T) (R := R) (P := P) hδ0.le
  have hA3 := tripleConst_nonneg (env := env) (T := T) (R := R) (P := P)
  have hn9 := nineSum_nonneg hδ0
  set s := Spec.cnSlope w D with hsd
  set a := Real.exp (5 * s) * s * pairConst env T R P δ with ha
  set t := Real.exp (5 * s) * (3 / 2 * s) * (4 * tripleConst env T R P) with ht
  have ha0 : 0 ≤ a := by positivity
  have ht0 : 0 ≤ t := by positivity
  refine ⟨a * (5488 / δ ^ 6) + t * (nineSum δ / 2), by positivity, fun n M M' c hM hZ hMQ hsp hd => ?_⟩
  have hu : ∀ i, 0 ≤ (if M.Z i ≠ 0 then |M'.cn i - M.cn i| else 0) := fun i => by
    split_ifs
    · exact abs_nonneg _
    · exact le_rfl
  refine sum_energy_le hδ0 hsp hu ha0 ht0 (fun i j => ?_) (fun i j k => ?_)
  · by_cases hij : M.Z i = 0 ∨ M.Z j = 0
    · rw [pairPart_pad hij, pairPart_pad (by rw [hM.Z]; exact hij), sub_self, abs_zero]
      exact mul_nonneg ha0 (mul_nonneg (add_nonneg (hu i) (hu j)) (invSix_nonneg _ _ _ _))
    · push Not at hij
      rw [if_pos hij.1, if_pos hij.2]
      have di := hd i hij.1
      have dj := hd j hij.2
      set u := |M'.cn i - M.cn i| + |M'.cn j - M.cn j| with hud
      have u0 : 0 ≤ u := by positivity
      have hx : s * u ≤ 5 * s := by nlinarith
      refine (pairPart_cn (c := c) (P := P) hfl hT hgc hB hs hM hZ (i := i) (j := j) (u := u) le_rfl).trans ?_
      have h1 := pairPart_le (c := c) hT hga hgc ha1 ha2 hδ hZ hMQ hsp i j
      refine (mul_le_mul (exp_lin (by positivity) hx) h1 (abs_nonneg _) (by positivity)).trans (le_of_eq ?_)
      rw [ha]
      ring
  · by_cases hij : M.Z i = 0 ∨ M.Z j = 0 ∨ M.Z k = 0
    · rw [triplePart_pad hij, triplePart_pad (by rw [hM.Z]; exact hij), sub_self, abs_zero]
      exact mul_nonneg ht0 (mul_nonneg (add_nonneg (add_nonneg (hu i) (hu j)) (hu k)) (invNine_nonneg _ _ _ _ _))
    · push Not at hij
      rw [if_pos hij.1, if_pos hij.2.1, if_pos hij.2.2]
      have di := hd i hij.1
      have dj := hd j hij.2.1
      have dk := hd k hij.2.2
      set u := |M'.cn i - M.cn i| + |M'.cn j - M.cn j| + |M'.cn k - M.cn k| with hud
      have u0 : 0 ≤ u := by positivity
      have hx : 3 / 2 * (s * u) ≤ 5 * s := by nlinarith
      refine (triplePart_cn (c := c) (P := P) hfl hT hgc hB hs hM hZ (i := i) (j := j) (k := k) (u := u) le_rfl).trans ?_
      have h1 := triplePart_le (c := c) hT hga hgc ha1 ha2 hδ hZ hsp i j k
      refine (mul_le_mul (exp_lin (by positivity) hx) h1 (abs_nonneg _) (by positivity)).trans (le_of_eq ?_)
      rw [ht]
      ring

/-- Charges. -/
theorem energy_charge_sum (hT : T.Physical R.rq) (hga : 0 ≤ R.ga) (hgc : 0 < R.gc) (ha1 : 0 ≤ P.a1) (ha2 : 0 ≤ P.a2)
    (hδ : √env.eps ≤ δ) : ∃ K : ℝ, 0 ≤ K ∧ ∀ (n : ℕ) (M M' : Spec.Mol n) (c : Cutoff), SameButCharges M M' →
      (∀ i, M.Z i < T.nZ) → (∀ i, M.Q i = T.r4r2 (M.Z i)) → Spec.Spaced δ M.Z M.pos →
      Spec.ChargesOk env T n M.Z M.q → Spec.ChargesOk env T n M.Z M'.q →
      ∑ i, |Spec.energy (d4Computed env T R P c) M' i - Spec.energy (d4Computed env T R P c) M i| ≤
        K * Spec.sumReal M.Z fun j => |M'.q j - M.q j| := by
  have hδ0 : 0 < δ := (Real.sqrt_pos.2 env.eps_pos).trans_le hδ
  have hL := c6Slope_nonneg (env := env) (T := T) (R := R)
  have hQ0 := quadSum_nonneg (T := T)
  set L := 1 / 2 * (c6Slope env T R * (|P.s6| + |P.s8| * (3 * quadSum T * quadSum T) / δ ^ 2 +
    |P.s10| * ((3 * quadSum T * quadSum T) ^ 2 * 49 / 40) / δ ^ 4)) with hLd
  have hL0 : 0 ≤ L := by positivity
  refine ⟨L * (2 * (5488 / δ ^ 6)), by positivity, fun n M M' c hM hZ hMQ hsp hq hq' => ?_⟩
  set u : Fin n → ℝ := fun i => if M.Z i ≠ 0 then |M'.q i - M.q i| else 0 with hud
  have hu : ∀ i, 0 ≤ u i := fun i => by
    rw [hud]
    beta_reduce
    split_ifs
    · exact abs_nonneg _
    · exact le_rfl
  have h1 : ∀ i, |Spec.energy (d4Computed env T R P c) M' i - Spec.energy (d4Computed env T R P c) M i| ≤
      L * ∑ j, (u i + u j) * invSix M.Z M.pos i j := by
    intro i
    refine (energy_lip_charges (c := c) (M := M) (M' := M') hT hga hgc ha1 ha2 hδ hQ0 hM hZ
      (fun j => by rw [hMQ]; exact le_quadSum (hZ j)) hsp hq hq' i).trans (le_of_eq ?_)
    rw [← hLd]
    refine congrArg _ (Finset.sum_congr rfl fun j _ => ?_)
    unfold invSix
    by_cases h : M.Z i ≠ 0 ∧ M.Z j ≠ 0 ∧ i ≠ j
    · rw [if_pos h, if_pos h, hud]
      simp only [if_pos h.1, if_pos h.2.1]
      ring
    · rw [if_neg h, if_neg h, mul_zero]
  refine (Finset.sum_le_sum fun i _ => h1 i).trans ?_
  rw [← Finset.mul_sum, mul_assoc L]
  exact mul_le_mul_of_nonneg_left (sum_invSix M.Z M.pos hδ0 hsp hu) hL0

end

end TadDftd4
