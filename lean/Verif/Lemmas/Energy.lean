import Verif.Spec.D4

/-!
# Properties of the specified energies
-/

open scoped Classical

namespace TadDftd4.Spec

variable {n m : ℕ} {S S' : Settings} {M : Mol n}

theorem rsqrt_pos {ε : ℝ} (h : 0 < ε) (x : ℝ) : 0 < rsqrt ε x :=
  Real.sqrt_pos.2 (lt_of_lt_of_le h (le_max_right _ _))

theorem rsqrt_nonneg (ε x : ℝ) : 0 ≤ rsqrt ε x := Real.sqrt_nonneg _

theorem Mol.r_symm (M : Mol n) (ε : ℝ) (i j : Fin n) : M.r ε i j = M.r ε j i := by
  unfold Mol.r; rw [dist_comm]

theorem Mol.r_pos {ε : ℝ} (h : 0 < ε) (M : Mol n) (i j : Fin n) : 0 < M.r ε i j := rsqrt_pos h _

/-- Sum over a part of the indices, the others contributing nothing. -/
theorem sum_comap {f : Fin m → Fin n} (hf : Function.Injective f) {g : Fin n → ℝ}
    (h : ∀ j, j ∉ Set.range f → g j = 0) : ∑ j, g j = ∑ j, g (f j) := by
  rw [← Finset.sum_image (s := Finset.univ) (f := g) (g := f) (fun a _ b _ hab => hf hab)]
  refine (Finset.sum_subset (Finset.subset_univ _) fun j _ hj => h j ?_).symm
  rintro ⟨k, rfl⟩
  exact hj (Finset.mem_image_of_mem f (Finset.mem_univ k))

/-- The two-body energy of a part of the atoms does not notice atoms that are padding or beyond the
cutoff. -/
theorem e2_comap {f : Fin m → Fin n} (hf : Function.Injective f) (A : Fin n → AtomData)
    (h : ∀ j, j ∉ Set.range f → M.Z j = 0 ∨ ∀ i, M.Z (f i) ≠ 0 → S.cut2 < M.r S.ε (f i) j) (i : Fin m) :
    e2 S (M.comap f) (A ∘ f) i = e2 S M A (f i) := by
  unfold e2
  rw [sum_comap hf]
  · congr 1
    refine Finset.sum_congr rfl fun j _ => ?_
    refine if_congr ?_ rfl rfl
    simp [Mol.comap, hf.eq_iff, Mol.r]
  · intro j hj
    rcases h j hj with h0 | h1
    · simp [h0]
    · rw [if_neg]
      intro hc
      exact absurd hc.2.2.2 (not_le.2 (h1 i hc.1))

theorem e3_comap {f : Fin m → Fin n} (hf : Function.Injective f) (C : Fin n → Fin n → Fin n → ℝ)
    (R : Fin n → Fin n → ℝ)
    (h : ∀ j, j ∉ Set.range f → M.Z j = 0 ∨ ∀ i, M.Z (f i) ≠ 0 → S.cut3 < M.r S.ε (f i) j) (i : Fin m) :
    e3 S (M.comap f) (fun a b c => C (f a) (f b) (f c)) (fun a b => R (f a) (f b)) i =
      e3 S M C R (f i) := by
  unfold e3
  rw [sum_comap hf]
  · congr 1
    refine Finset.sum_congr rfl fun j _ => ?_
    rw [sum_comap hf]
    · refine Finset.sum_congr rfl fun k _ => ?_
      refine if_congr ?_ rfl rfl
      simp [Mol.comap, hf.eq_iff, withinCut3, Mol.r]
    · intro k hk
      rcases h k hk with h0 | h1
      · simp [h0]
      · rw [if_neg]
        intro hc
        exact absurd hc.2.2.2.2.2.2.2 (not_le.2 (h1 j hc.2.1))
  · intro j hj
    refine Finset.sum_eq_zero fun k _ => ?_
    rcases h j hj with h0 | h1
    · simp [h0]
    · rw [if_neg]
      intro hc
      exact absurd hc.2.2.2.2.2.2.1 (not_le.2 (h1 i hc.1))

theorem energy_comap {f : Fin m → Fin n} (hf : Function.Injective f)
    (h : ∀ j, j ∉ Set.range f → M.Z j = 0 ∨
      ∀ i, M.Z (f i) ≠ 0 → S.cut2 < M.r S.ε (f i) j ∧ S.cut3 < M.r S.ε (f i) j) (i : Fin m) :
    energy S (M.comap f) i = energy S M (f i) := by
  unfold energy
  rw [← e2_comap hf _ (fun j hj => (h j hj).imp id fun h' i hi => (h' i hi).1),
    ← e3_comap hf _ _ (fun j hj => (h j hj).imp id fun h' i hi => (h' i hi).2)]
  rfl

/-- Padding atoms have no energy. -/
theorem e2_pad {A : Fin n → AtomData} {i : Fin n} (h : M.Z i = 0) : e2 S M A i = 0 := by
  simp [e2, h]

theorem e3_pad {C : Fin n → Fin n → Fin n → ℝ} {R : Fin n → Fin n → ℝ} {i : Fin n}
    (h : M.Z i = 0) : e3 S M C R i = 0 := by
  simp [e3, h]

theorem energy_pad {i : Fin n} (h : M.Z i = 0) : energy S M i = 0 := by
  simp [energy, e2_pad h, e3_pad h]

/-- The energies depend on the positions only through the distances. -/
theorem energy_congr_pos {M M' : Mol n} (hZ : M.Z = M'.Z) (hc : M.cn = M'.cn) (hq : M.q = M'.q)
    (hQ : M.Q = M'.Q) (hv : M.rvdw = M'.rvdw)
    (hd : ∀ i j, dist (M.pos i) (M.pos j) = dist (M'.pos i) (M'.pos j)) (i : Fin n) :
    energy S M i = energy S M' i := by
  obtain ⟨Z, pos, c, q, Q, rv⟩ := M
  obtain ⟨Z', pos', c', q', Q', rv'⟩ := M'
  simp only at hZ hc hq hQ hv hd
  subst hZ hc hq hQ hv
  have hr : ∀ i j, Mol.r ⟨Z, pos, c, q, Q, rv⟩ S.ε i j = Mol.r ⟨Z, pos', c, q, Q, rv⟩ S.ε i j := by
    intro i j; simp only [Mol.r, hd]
  unfold energy e2 e3 pairTerm tripleTerm withinCut3 rad R0
  simp only [hr]
  rfl

/-- The energies depend on the data of real atoms only. -/
theorem energy_congr_real {M M' : Mol n} (hZ : M.Z = M'.Z) (hQ : M.Q = M'.Q)
    (hp : ∀ i, M'.Z i ≠ 0 → M.pos i = M'.pos i) (hc : ∀ i, M'.Z i ≠ 0 → M.cn i = M'.cn i)
    (hq : ∀ i, M'.Z i ≠ 0 → M.q i = M'.q i) (hv : M.rvdw = M'.rvdw) (i : Fin n) :
    energy S M i = energy S M' i := by
  have hr : ∀ i j, M'.Z i ≠ 0 → M'.Z j ≠ 0 → M.r S.ε i j = M'.r S.ε i j := by
    intro i j hi hj; rw [Mol.r, Mol.r, hp i hi, hp j hj]
  have hA : ∀ i, M'.Z i ≠ 0 → M.atom i = M'.atom i := by
    intro i hi; rw [Mol.atom, Mol.atom, hZ, hc i hi, hq i hi]
  have hN : ∀ i, M'.Z i ≠ 0 → M.neutral i = M'.neutral i := by
    intro i hi; rw [Mol.neutral, Mol.neutral, hZ, hc i hi]
  unfold energy e2 e3
  congr 1
  · congr 1
    refine Finset.sum_congr rfl fun j _ => ?_
    rw [hZ]
    by_cases h : M'.Z i ≠ 0 ∧ M'.Z j ≠ 0
    · have hrad : rad S M i j = rad S M' i j := by unfold rad; rw [hQ, hv]
      rw [pairTerm, pairTerm, hr i j h.1 h.2, hA i h.1, hA j h.2, hQ, hrad]
    · rw [if_neg (fun hc => h ⟨hc.1, hc.2.1⟩), if_neg (fun hc => h ⟨hc.1, hc.2.1⟩)]
  · congr 1
    refine Finset.sum_congr rfl fun j _ => Finset.sum_congr rfl fun k _ => ?_
    rw [hZ]
    by_cases h : M'.Z i ≠ 0 ∧ M'.Z j ≠ 0 ∧ M'.Z k ≠ 0
    · obtain ⟨hi, hj, hk⟩ := h
      have hR : R0 S M = R0 S M' := by funext a b; unfold R0; rw [hQ]
      refine if_congr ?_ ?_ rfl
      · simp only [withinCut3, hr i j hi hj, hr j k hj hk]
      · simp only [tripleTerm, c9, hr i j hi hj, hr i k hi hk, hr j k hj hk, hN i hi, hN j hj,
          hN k hk, hR]
    · rw [if_neg (fun hc => h ⟨hc.1, hc.2.1, hc.2.2.1⟩), if_neg (fun hc => h ⟨hc.1, hc.2.1, hc.2.2.1⟩)]

/-- Two settings with the same numbers and with coefficients and three-body damping that agree where
they are used. -/
structure Settings.Agree (S S' : Settings) (M : Mol n) : Prop where
  ε : S.ε = S'.ε
  c6 : ∀ i j (q q' : ℝ), S.c6 ⟨M.Z i, M.cn i, q⟩ ⟨M.Z j, M.cn j, q'⟩ =
    S'.c6 ⟨M.Z i, M.cn i, q⟩ ⟨M.Z j, M.cn j, q'⟩
  f6 : ∀ r x, 0 < r → S.f6 r x = S'.f6 r x
  f8 : ∀ r x, 0 < r → S.f8 r x = S'.f8 r x
  f10 : S.s10 ≠ 0 → ∀ r x, 0 < r → S.f10 r x = S'.f10 r x
  f9 : ∀ R r, 0 < r → S.f9 R r = S'.f9 R r
  radius : S.radius = S'.radius
  s6 : S.s6 = S'.s6
  s8 : S.s8 = S'.s8
  s10 : S.s10 = S'.s10
  s9 : S.s9 = S'.s9
  a1 : S.a1 = S'.a1
  a2 : S.a2 = S'.a2
  cut2 : S.cut2 = S'.cut2
  cut3 : S.cut3 = S'.cut3

theorem energy_congr (hε : 0 < S.ε) (h : S.Agree S' M) (i : Fin n) :
    energy S M i = energy S' M i := by
  have hr := fun a b => M.r_pos hε a b
  have hr' : ∀ a b, 0 < M.r S'.ε a b := fun a b => h.ε ▸ hr a b
  unfold energy
  congr 1
  · unfold e2
    congr 1
    refine Finset.sum_congr rfl fun j _ => ?_
    rw [h.ε, h.cut2]
    refine if_congr Iff.rfl ?_ rfl
    have hrad : rad S M i j = rad S' M i j := by unfold rad; rw [h.radius]
    have h10 : S.s10 * (S.c6 (M.atom i) (M.atom j) * (3 * M.Q i * M.Q j) ^ 2 * 49 / 40 *
        S.f10 (M.r S'.ε i j) (rad S' M i j)) =
        S'.s10 * (S.c6 (M.atom i) (M.atom j) * (3 * M.Q i * M.Q j) ^ 2 * 49 / 40 *
        S'.f10 (M.r S'.ε i j) (rad S' M i j)) := by
      rw [← h.s10]
      by_cases h0 : S.s10 = 0
      · simp [h0]
      · rw [h.f10 h0 _ _ (hr' i j)]
    unfold pairTerm
    simp only [h.ε, hrad]
    rw [h10, h.f6 _ _ (hr' i j), h.f8 _ _ (hr' i j), h.s6, h.s8]
    unfold Mol.atom
    rw [h.c6]
  · unfold e3
    congr 1
    refine Finset.sum_congr rfl fun j _ => Finset.sum_congr rfl fun k _ => ?_
    have hw : withinCut3 S M i j k ↔ withinCut3 S' M i j k := by
      unfold withinCut3; rw [h.ε, h.cut3]
    refine if_congr (by rw [hw]) ?_ rfl
    unfold tripleTerm c9 R0 Mol.neutral
    simp only [h.ε, h.s9, h.a1, h.a2, h.c6]
    rw [h.f9 _ _ (mul_pos (mul_pos (hr' i j) (hr' i k)) (hr' j k))]

end TadDftd4.Spec

namespace TadDftd4.Spec

variable {n : ℕ} {S : Settings} {M : Mol n}

theorem rsqrt_of_le {ε x : ℝ} (h : ε ≤ x) : rsqrt ε x = √x := by rw [rsqrt, max_eq_left h]

theorem rsqrt_zero {x : ℝ} (h : 0 ≤ x) : rsqrt 0 x = √x := rsqrt_of_le h

/-- Nothing is close to zero: no regularisation takes place. -/
structure Regular (S : Settings) (M : Mol n) : Prop where
  ε : 0 ≤ S.ε
  dist : ∀ i j, M.Z i ≠ 0 → M.Z j ≠ 0 → i ≠ j → S.ε ≤ dist (M.pos i) (M.pos j) ^ 2
  Q : ∀ i j, M.Z i ≠ 0 → M.Z j ≠ 0 → i ≠ j → S.ε ≤ 3 * M.Q i * M.Q j
  c9 : ∀ i j k, M.Z i ≠ 0 → M.Z j ≠ 0 → M.Z k ≠ 0 → i ≠ j → i ≠ k → j ≠ k →
    S.ε ≤ |S.c6 (M.neutral i) (M.neutral j) * S.c6 (M.neutral i) (M.neutral k) *
      S.c6 (M.neutral j) (M.neutral k)|

theorem Regular.r_eq (h : Regular S M) {i j : Fin n} (hi : M.Z i ≠ 0) (hj : M.Z j ≠ 0)
    (hij : i ≠ j) : M.r S.ε i j = M.r 0 i j := by
  unfold Mol.r
  rw [rsqrt_of_le (h.dist i j hi hj hij), rsqrt_zero (sq_nonneg _)]

/-- Without regularisation, distances are Euclidean. -/
theorem Mol.r_zero (M : Mol n) (i j : Fin n) : M.r 0 i j = dist (M.pos i) (M.pos j) := by
  unfold Mol.r; rw [rsqrt_zero (sq_nonneg _), Real.sqrt_sq dist_nonneg]

/-- For ordinary molecules the regularised energy is the textbook energy (`ε = 0`). -/
theorem energy_textbook (h : Regular S M) (i : Fin n) :
    energy S M i = energy { S with ε := 0 } M i := by
  unfold energy
  congr 1
  · unfold e2
    congr 1
    refine Finset.sum_congr rfl fun j _ => ?_
    by_cases hc : M.Z i ≠ 0 ∧ M.Z j ≠ 0 ∧ i ≠ j
    · have hr := h.r_eq hc.1 hc.2.1 hc.2.2
      unfold pairTerm
      simp only [hr]
      rfl
    · rw [if_neg (fun h' => hc ⟨h'.1, h'.2.1, h'.2.2.1⟩),
        if_neg (fun h' => hc ⟨h'.1, h'.2.1, h'.2.2.1⟩)]
  · unfold e3
    congr 1
    refine Finset.sum_congr rfl fun j _ => Finset.sum_congr rfl fun k _ => ?_
    by_cases hc : M.Z i ≠ 0 ∧ M.Z j ≠ 0 ∧ M.Z k ≠ 0 ∧ i ≠ j ∧ i ≠ k ∧ j ≠ k
    · obtain ⟨h1, h2, h3, h12, h13, h23⟩ := hc
      have r12 := h.r_eq h1 h2 h12
      have r13 := h.r_eq h1 h3 h13
      have r23 := h.r_eq h2 h3 h23
      have hc9 : c9 S M.neutral i j k = c9 { S with ε := 0 } M.neutral i j k := by
        unfold c9
        rw [rsqrt_of_le (h.c9 i j k h1 h2 h3 h12 h13 h23)]
        exact (rsqrt_zero (abs_nonneg _)).symm
      have hR : ∀ a b, M.Z a ≠ 0 → M.Z b ≠ 0 → a ≠ b → R0 S M a b = R0 { S with ε := 0 } M a b := by
        intro a b ha hb hab
        unfold R0
        rw [rsqrt_of_le (h.Q a b ha hb hab)]
        simp only
        rw [rsqrt_zero (h.ε.trans (h.Q a b ha hb hab))]
      have hw : withinCut3 S M i j k ↔ withinCut3 { S with ε := 0 } M i j k := by
        unfold withinCut3; simp only [r12, r23]
      have ht : tripleTerm S M (c9 S M.neutral) (R0 S M) i j k = tripleTerm { S with ε := 0 } M
          (c9 { S with ε := 0 } M.neutral) (R0 { S with ε := 0 } M) i j k := by
        unfold tripleTerm
        simp only [r12, r13, r23, hc9, hR i j h1 h2 h12, hR i k h1 h3 h13, hR j k h2 h3 h23]
      exact if_congr (by rw [hw]) ht rfl
    · rw [if_neg (fun h' => hc ⟨h'.1, h'.2.1, h'.2.2.1, h'.2.2.2.1, h'.2.2.2.2.1, h'.2.2.2.2.2.1⟩),
        if_neg (fun h' => hc ⟨h'.1, h'.2.1, h'.2.2.1, h'.2.2.2.1, h'.2.2.2.2.1, h'.2.2.2.2.2.1⟩)]

end TadDftd4.Spec
