import Verif.Lemmas.Bounds
import Verif.Props.C16Pos
import Verif.Props.C36
import Verif.Props.C42

/-!
# C82: the energy surface is continuous except at the cutoffs

Distances enter through `storch.cdist`, regularised square roots and the masks `distances <= cutoff`
(dispersion/twobody.py:126-178, dispersion/threebody.py:54-163), so the energies are continuous at every
geometry, coinciding atoms included, unless a distance equals a cutoff. If it does, they jump by the terms
of the pairs and triples which leave the cutoff.
-/

open Filter Topology
open scoped Classical

namespace TadDftd4

namespace Spec

variable {n : ℕ} {ι : Type*} {l : Filter ι}

/-- A molecule that approaches the molecule `M₀`; only real atoms count. -/
structure Approaches (l : Filter ι) (M : ι → Mol n) (M₀ : Mol n) : Prop where
  Z : ∀ t, (M t).Z = M₀.Z
  Q : ∀ t, (M t).Q = M₀.Q
  pos : ∀ i, M₀.Z i ≠ 0 → Tendsto (fun t => (M t).pos i) l (𝓝 (M₀.pos i))
  cn : ∀ i, M₀.Z i ≠ 0 → Tendsto (fun t => (M t).cn i) l (𝓝 (M₀.cn i))
  q : ∀ i, M₀.Z i ≠ 0 → Tendsto (fun t => (M t).q i) l (𝓝 (M₀.q i))

variable {M : ι → Mol n} {M₀ : Mol n} {C : C6Settings} {ε : ℝ} {P : D4Par} {cut2 cut3 : ℝ}

theorem Approaches.r (h : Approaches l M M₀) {i j : Fin n} (hi : M₀.Z i ≠ 0) (hj : M₀.Z j ≠ 0) :
    Tendsto (fun t => (M t).r ε i j) l (𝓝 (M₀.r ε i j)) := by
  unfold Mol.r rsqrt
  exact ((((h.pos i hi).dist (h.pos j hj)).pow 2).max tendsto_const_nhds).sqrt

/-- C6 coefficients are continuous in coordination numbers and charges. -/
theorem tendsto_c6 {Z Z' : ℕ} {f q f' q' : ι → ℝ} {a b a' b' : ℝ} (hε : 0 < C.ε)
    (hf : Tendsto f l (𝓝 a)) (hq : Tendsto q l (𝓝 b)) (hf' : Tendsto f' l (𝓝 a'))
    (hq' : Tendsto q' l (𝓝 b')) (h : C.ε < b + C.T.zeff Z) (h' : C.ε < b' + C.T.zeff Z') :
    Tendsto (fun t => c6 C ⟨Z, f t, q t⟩ ⟨Z', f' t, q' t⟩) l (𝓝 (c6 C ⟨Z, a, b⟩ ⟨Z', a', b'⟩)) := by
  have hc := (contDiffAt_c6 (m := 1) (C := C) (Z := Z) (Z' := Z') (x := ((a, b), (a', b')))
    (f := fun v : (ℝ × ℝ) × (ℝ × ℝ) => v.1.1) (q := fun v => v.1.2) (f' := fun v => v.2.1)
    (q' := fun v => v.2.2) hε (contDiff_fst.fst).contDiffAt (contDiff_fst.snd).contDiffAt
    (contDiff_snd.fst).contDiffAt (contDiff_snd.snd).contDiffAt h h').continuousAt
  have hp : Tendsto (fun t => ((f t, q t), (f' t, q' t))) l (𝓝 ((a, b), (a', b'))) :=
    (hf.prodMk_nhds hq).prodMk_nhds (hf'.prodMk_nhds hq')
  have := Tendsto.comp hc.tendsto hp
  simpa only [Function.comp_def] using this

theorem tendsto_pairTerm (hε : 0 < ε) (hCε : 0 < C.ε) (h : Approaches l M M₀)
    (hq : ∀ i, M₀.Z i ≠ 0 → C.ε < M₀.q i + C.T.zeff (M₀.Z i)) {i j : Fin n} (hi : M₀.Z i ≠ 0)
    (hj : M₀.Z j ≠ 0) :
    Tendsto (fun t => pairTerm (d4Settings C ε P cut2 cut3) (M t) (M t).atom i j) l
      (𝓝 (pairTerm (d4Settings C ε P cut2 cut3) M₀ M₀.atom i j)) := by
  have hr := h.r (ε := ε) hi hj
  have hr0 : 0 < M₀.r ε i j := Mol.r_pos hε _ i j
  have hc : Tendsto (fun t => c6 C ((M t).atom i) ((M t).atom j)) l
      (𝓝 (c6 C (M₀.atom i) (M₀.atom j))) := by
    unfold Mol.atom
    simp only [h.Z]
    exact tendsto_c6 hCε (h.cn i hi) (h.q i hi) (h.cn j hj) (h.q j hj) (hq i hi) (hq j hj)
  have hf : ∀ {k : ℕ}, Even k → ∀ a : ℝ, Tendsto (fun t => 1 / ((M t).r ε i j ^ k + a ^ k)) l
      (𝓝 (1 / (M₀.r ε i j ^ k + a ^ k))) := by
    intro k hk a
    refine tendsto_const_nhds.div ((hr.pow k).add tendsto_const_nhds) ?_
    have := pow_pos hr0 k
    have := hk.pow_nonneg a
    positivity
  unfold pairTerm
  simp only [d4Settings, rad, h.Q]
  exact ((tendsto_const_nhds.mul (hc.mul (hf (by decide) _))).add
    (tendsto_const_nhds.mul ((hc.mul tendsto_const_nhds).mul (hf (by decide) _)))).add
    (tendsto_const_nhds.mul ((((hc.mul tendsto_const_nhds).mul tendsto_const_nhds).div_const _).mul
      (hf (by decide) _)))

theorem tendsto_tripleTerm (hε : 0 < ε) (hCε : 0 < C.ε) (h : Approaches l M M₀)
    (hz : ∀ i, M₀.Z i ≠ 0 → C.ε < C.T.zeff (M₀.Z i))
    (hR : ∀ i j, 0 ≤ R0 (d4Settings C ε P cut2 cut3) M₀ i j) {i j k : Fin n} (hi : M₀.Z i ≠ 0)
    (hj : M₀.Z j ≠ 0) (hk : M₀.Z k ≠ 0) :
    Tendsto (fun t => tripleTerm (d4Settings C ε P cut2 cut3) (M t)
      (c9 (d4Settings C ε P cut2 cut3) (M t).neutral) (R0 (d4Settings C ε P cut2 cut3) (M t)) i j k) l
      (𝓝 (tripleTerm (d4Settings C ε P cut2 cut3) M₀
      (c9 (d4Settings C ε P cut2 cut3) M₀.neutral) (R0 (d4Settings C ε P cut2 cut3) M₀) i j k)) := by
  have r1 := h.r (ε := ε) hi hj
  have r2 := h.r (ε := ε) hi hk
  have r3 := h.r (ε := ε) hj hk
  have p1 : 0 < M₀.r ε i j := Mol.r_pos hε _ _ _
  have p2 : 0 < M₀.r ε i k := Mol.r_pos hε _ _ _
  have p3 : 0 < M₀.r ε j k := Mol.r_pos hε _ _ _
  have hRR : 0 ≤ R0 (d4Settings C ε P cut2 cut3) M₀ i j *
      R0 (d4Settings C ε P cut2 cut3) M₀ i k * R0 (d4Settings C ε P cut2 cut3) M₀ j k :=
    mul_nonneg (mul_nonneg (hR i j) (hR i k)) (hR j k)
  have hRt : ∀ t, R0 (d4Settings C ε P cut2 cut3) (M t) = R0 (d4Settings C ε P cut2 cut3) M₀ := by
    intro t; funext a b; simp only [R0, h.Q t]
  have hc : ∀ {i j : Fin n}, M₀.Z i ≠ 0 → M₀.Z j ≠ 0 →
      Tendsto (fun t => c6 C ((M t).neutral i) ((M t).neutral j)) l
        (𝓝 (c6 C (M₀.neutral i) (M₀.neutral j))) := by
    intro i j hi hj
    unfold Mol.neutral
    simp only [h.Z]
    exact tendsto_c6 hCε (h.cn i hi) tendsto_const_nhds (h.cn j hj) tendsto_const_nhds
      (by simpa using hz i hi) (by simpa using hz j hj)
  have hc9 : Tendsto (fun t => c9 (d4Settings C ε P cut2 cut3) (M t).neutral i j k) l
      (𝓝 (c9 (d4Settings C ε P cut2 cut3) M₀.neutral i j k)) := by
    unfold c9 rsqrt
    exact ((((hc hi hj).mul (hc hi hk)).mul (hc hj hk)).abs.max tendsto_const_nhds).sqrt
  have hcos : ∀ {a b c : ι → ℝ} {x y z : ℝ}, Tendsto a l (𝓝 x) → Tendsto b l (𝓝 y) →
      Tendsto c l (𝓝 z) → 0 < x → 0 < y →
      Tendsto (fun t => cosSides (a t) (b t) (c t)) l (𝓝 (cosSides x y z)) := by
    intro a b c x y z ha hb hc hx hy
    unfold cosSides
    exact (((ha.pow 2).add (hb.pow 2)).sub (hc.pow 2)).div ((tendsto_const_nhds.mul ha).mul hb)
      (by positivity)
  unfold tripleTerm
  simp only [hRt]
  generalize R0 (d4Settings C ε P cut2 cut3) M₀ i j * R0 (d4Settings C ε P cut2 cut3) M₀ i k *
    R0 (d4Settings C ε P cut2 cut3) M₀ j k = RR at hRR
  have hrr := (r1.mul r2).mul r3
  have prr : 0 < M₀.r ε i j * M₀.r ε i k * M₀.r ε j k := by positivity
  have hf9 : Tendsto (fun t => (d4Settings C ε P cut2 cut3).f9 RR
      ((M t).r ε i j * (M t).r ε i k * (M t).r ε j k)) l (𝓝 ((d4Settings C ε P cut2 cut3).f9 RR
        (M₀.r ε i j * M₀.r ε i k * M₀.r ε j k))) := by
    simp only [d4Settings]
    refine tendsto_const_nhds.div (tendsto_const_nhds.add (tendsto_const_nhds.mul ?_)) ?_
    · rcases hRR.eq_or_lt with h0 | h0
      · simp only [← h0, zero_div]
        exact tendsto_const_nhds
      · exact (tendsto_const_nhds.div hrr prr.ne').rpow_const (Or.inl (div_pos h0 prr).ne')
    · have := Real.rpow_nonneg (div_nonneg hRR prr.le) (P.alp / 3)
      positivity
  refine ((tendsto_const_nhds.mul hc9).mul hf9).mul ?_
  exact ((((tendsto_const_nhds.mul (hcos r1 r2 r3 p1 p2)).mul (hcos r1 r3 r2 p1 p3)).mul
    (hcos r2 r3 r1 p2 p3)).add tendsto_const_nhds).div (hrr.pow 3) (pow_pos prr 3).ne'

private theorem tendsto_ite {A : ι → Prop} {A₀ : Prop} [∀ t, Decidable (A t)] [Decidable A₀]
    {f : ι → ℝ} {v : ℝ} (hA : ∀ᶠ t in l, (A t ↔ A₀)) (hf : A₀ → Tendsto f l (𝓝 v)) :
    Tendsto (fun t => if A t then f t else 0) l (𝓝 (if A₀ then v else 0)) := by
  by_cases h0 : A₀
  · rw [if_pos h0]
    refine (hf h0).congr' ?_
    filter_upwards [hA] with t ht
    rw [if_pos (ht.2 h0)]
  · rw [if_neg h0]
    refine tendsto_const_nhds.congr' ?_
    filter_upwards [hA] with t ht
    rw [if_neg fun h => h0 (ht.1 h)]

/-- Whether a distance is within the cutoff is settled when the limit is approached: it is as in the
limit, unless the limit is at the cutoff and the distance exceeds it before. -/
private theorem eventually_within {f : ι → ℝ} {a c : ℝ} {out : Prop} (hf : Tendsto f l (𝓝 a))
    (h : a = c → ∀ᶠ t in l, (f t ≤ c ↔ ¬ out)) :
    ∀ᶠ t in l, (f t ≤ c ↔ a ≤ c ∧ ¬ (a = c ∧ out)) := by
  rcases lt_trichotomy a c with hl | he | hg
  · filter_upwards [hf.eventually (gt_mem_nhds hl)] with t ht
    exact ⟨fun _ => ⟨hl.le, fun h => hl.ne h.1⟩, fun _ => le_of_lt ht⟩
  · filter_upwards [h he] with t ht
    rw [ht]
    exact ⟨fun h => ⟨he.le, fun h' => h h'.2⟩, fun h ho => h.2 ⟨he, ho⟩⟩
  · filter_upwards [hf.eventually (lt_mem_nhds hg)] with t ht
    exact ⟨fun h => absurd h (not_le.2 ht), fun h => absurd h.1 (not_le.2 hg)⟩

private theorem ite_split {A A1 A2 : Prop} [Decidable A] [Decidable A1] [Decidable A2] {v : ℝ}
    (h : A ↔ A1 ∨ A2) (hn : ¬ (A1 ∧ A2)) :
    (if A then v else 0) = (if A1 then v else 0) + (if A2 then v else 0) := by
  by_cases h1 : A1
  · rw [if_pos (h.2 (Or.inl h1)), if_pos h1, if_neg fun h2 => hn ⟨h1, h2⟩, add_zero]
  · by_cases h2 : A2
    · rw [if_pos (h.2 (Or.inr h2)), if_neg h1, if_pos h2, zero_add]
    · rw [if_neg fun ha => (h.1 ha).elim h1 h2, if_neg h1, if_neg h2, add_zero]

/-- Limit of the energy of an atom. `out2` and `out3` tell which of the pairs at a cutoff are beyond it
before the limit is reached. -/
theorem tendsto_energy (hε : 0 < ε) (hCε : 0 < C.ε) (h : Approaches l M M₀)
    (hq : ∀ i, M₀.Z i ≠ 0 → C.ε < M₀.q i + C.T.zeff (M₀.Z i))
    (hz : ∀ i, M₀.Z i ≠ 0 → C.ε < C.T.zeff (M₀.Z i))
    (hR : ∀ i j, 0 ≤ R0 (d4Settings C ε P cut2 cut3) M₀ i j) {out2 out3 : Fin n → Fin n → Prop}
    (h2 : ∀ i j, M₀.Z i ≠ 0 → M₀.Z j ≠ 0 → i ≠ j → M₀.r ε i j = cut2 →
      ∀ᶠ t in l, ((M t).r ε i j ≤ cut2 ↔ ¬ out2 i j))
    (h3 : ∀ i j, M₀.Z i ≠ 0 → M₀.Z j ≠ 0 → i ≠ j → M₀.r ε i j = cut3 →
      ∀ᶠ t in l, ((M t).r ε i j ≤ cut3 ↔ ¬ out3 i j)) (i : Fin n) :
    let S := d4Settings C ε P cut2 cut3
    Tendsto (fun t => energy S (M t) i) l (𝓝 (energy S M₀ i +
      1 / 2 * (∑ j, if M₀.Z i ≠ 0 ∧ M₀.Z j ≠ 0 ∧ i ≠ j ∧ M₀.r ε i j = cut2 ∧ out2 i j then
        pairTerm S M₀ M₀.atom i j else 0) -
      1 / 6 * (∑ j, ∑ k, if M₀.Z i ≠ 0 ∧ M₀.Z j ≠ 0 ∧ M₀.Z k ≠ 0 ∧ i ≠ j ∧ i ≠ k ∧ j ≠ k ∧
          (M₀.r ε i j ≤ cut3 ∧ M₀.r ε j k ≤ cut3) ∧
          (M₀.r ε i j = cut3 ∧ out3 i j ∨ M₀.r ε j k = cut3 ∧ out3 j k) then
        tripleTerm S M₀ (c9 S M₀.neutral) (R0 S M₀) i j k else 0))) := by
  intro S
  have l2 : Tendsto (fun t => e2 S (M t) (M t).atom i) l (𝓝 (-(1 / 2) * ∑ j,
      if M₀.Z i ≠ 0 ∧ M₀.Z j ≠ 0 ∧ i ≠ j ∧ M₀.r ε i j ≤ cut2 ∧ ¬ (M₀.r ε i j = cut2 ∧ out2 i j) then
        pairTerm S M₀ M₀.atom i j else 0)) := by
    unfold e2
    refine tendsto_const_nhds.mul (tendsto_finsetSum _ fun j _ => tendsto_ite ?_ fun hc =>
      tendsto_pairTerm hε hCε h hq hc.1 hc.2.1)
    show ∀ᶠ t in l, ((M t).Z i ≠ 0 ∧ (M t).Z j ≠ 0 ∧ i ≠ j ∧ (M t).r ε i j ≤ cut2 ↔ _)
    by_cases hc : M₀.Z i ≠ 0 ∧ M₀.Z j ≠ 0 ∧ i ≠ j
    · filter_upwards [eventually_within (h.r hc.1 hc.2.1) (h2 i j hc.1 hc.2.1 hc.2.2)] with t ht
      rw [h.Z t, ht]
    · refine Eventually.of_forall fun t => ?_
      rw [h.Z t]
      tauto
  have l3 : Tendsto (fun t => e3 S (M t) (c9 S (M t).neutral) (R0 S (M t)) i) l (𝓝 (1 / 6 * ∑ j, ∑ k,
      if M₀.Z i ≠ 0 ∧ M₀.Z j ≠ 0 ∧ M₀.Z k ≠ 0 ∧ i ≠ j ∧ i ≠ k ∧ j ≠ k ∧
        (M₀.r ε i j ≤ cut3 ∧ ¬ (M₀.r ε i j = cut3 ∧ out3 i j)) ∧
        (M₀.r ε j k ≤ cut3 ∧ ¬ (M₀.r ε j k = cut3 ∧ out3 j k)) then
        tripleTerm S M₀ (c9 S M₀.neutral) (R0 S M₀) i j k else 0)) := by
    unfold e3
    refine tendsto_const_nhds.mul (tendsto_finsetSum _ fun j _ => tendsto_finsetSum _ fun k _ =>
      tendsto_ite ?_ fun hc => tendsto_tripleTerm hε hCε h hz hR hc.1 hc.2.1 hc.2.2.1)
    show ∀ᶠ t in l, ((M t).Z i ≠ 0 ∧ (M t).Z j ≠ 0 ∧ (M t).Z k ≠ 0 ∧ i ≠ j ∧ i ≠ k ∧ j ≠ k ∧
      ((M t).r ε i j ≤ cut3 ∧ (M t).r ε j k ≤ cut3) ↔ _)
    by_cases hc : M₀.Z i ≠ 0 ∧ M₀.Z j ≠ 0 ∧ M₀.Z k ≠ 0 ∧ i ≠ j ∧ i ≠ k ∧ j ≠ k
    · obtain ⟨zi, zj, zk, hij, hik, hjk⟩ := hc
      filter_upwards [eventually_within (h.r zi zj) (h3 i j zi zj hij),
        eventually_within (h.r zj zk) (h3 j k zj zk hjk)] with t t1 t2
      rw [h.Z t, t1, t2]
    · refine Eventually.of_forall fun t => ?_
      rw [h.Z t]
      tauto
  have key := l2.add l3
  unfold energy
  have a2 : e2 S M₀ M₀.atom i = -(1 / 2) * (∑ j,
      if M₀.Z i ≠ 0 ∧ M₀.Z j ≠ 0 ∧ i ≠ j ∧ M₀.r ε i j ≤ cut2 ∧ ¬ (M₀.r ε i j = cut2 ∧ out2 i j) then
        pairTerm S M₀ M₀.atom i j else 0) -
      1 / 2 * (∑ j, if M₀.Z i ≠ 0 ∧ M₀.Z j ≠ 0 ∧ i ≠ j ∧ M₀.r ε i j = cut2 ∧ out2 i j then
        pairTerm S M₀ M₀.atom i j else 0) := by
    rw [neg_mul, ← neg_add', ← mul_add, ← Finset.sum_add_distrib, ← neg_mul]
    refine congrArg _ (Finset.sum_congr rfl fun j _ => ?_)
    refine ite_split ?_ (by tauto)
    show (M₀.Z i ≠ 0 ∧ M₀.Z j ≠ 0 ∧ i ≠ j ∧ M₀.r ε i j ≤ cut2) ↔ _
    have : M₀.r ε i j = cut2 → M₀.r ε i j ≤ cut2 := le_of_eq
    tauto
  have a3 : e3 S M₀ (c9 S M₀.neutral) (R0 S M₀) i = 1 / 6 * (∑ j, ∑ k,
      if M₀.Z i ≠ 0 ∧ M₀.Z j ≠ 0 ∧ M₀.Z k ≠ 0 ∧ i ≠ j ∧ i ≠ k ∧ j ≠ k ∧
        (M₀.r ε i j ≤ cut3 ∧ ¬ (M₀.r ε i j = cut3 ∧ out3 i j)) ∧
        (M₀.r ε j k ≤ cut3 ∧ ¬ (M₀.r ε j k = cut3 ∧ out3 j k)) then
        tripleTerm S M₀ (c9 S M₀.neutral) (R0 S M₀) i j k else 0) +
      1 / 6 * (∑ j, ∑ k, if M₀.Z i ≠ 0 ∧ M₀.Z j ≠ 0 ∧ M₀.Z k ≠ 0 ∧ i ≠ j ∧ i ≠ k ∧ j ≠ k ∧
          (M₀.r ε i j ≤ cut3 ∧ M₀.r ε j k ≤ cut3) ∧
          (M₀.r ε i j = cut3 ∧ out3 i j ∨ M₀.r ε j k = cut3 ∧ out3 j k) then
        tripleTerm S M₀ (c9 S M₀.neutral) (R0 S M₀) i j k else 0) := by
    rw [← mul_add, ← Finset.sum_add_distrib]
    refine congrArg _ (Finset.sum_congr rfl fun j _ => ?_)
    rw [← Finset.sum_add_distrib]
    refine Finset.sum_congr rfl fun k _ => ?_
    refine ite_split ?_ (by tauto)
    show (M₀.Z i ≠ 0 ∧ M₀.Z j ≠ 0 ∧ M₀.Z k ≠ 0 ∧ i ≠ j ∧ i ≠ k ∧ j ≠ k ∧
      (M₀.r ε i j ≤ cut3 ∧ M₀.r ε j k ≤ cut3)) ↔ _
    tauto
  refine Eq.mp (congrArg (fun v => Tendsto _ l (𝓝 v)) ?_) key
  rw [a2, a3]
  ring

end Spec

open Tensor

section
variable {env : Env} {T : Tables} {ext : Ext} {numbers : Tensor ℕ}
  {charge : Tensor ℝ} {p : Param}
  {o : DftOpts} {n : ℕ} {B : Shape} {b : Idx} {R : RefCfg} {cn : Spec.CN} {eeq : Spec.EEQ}
  {P : Spec.D4Par} {E : (Fin n → Spec.E3) → Fin n → ℝ} {x : Fin n → Spec.E3}

/-- `dftd4` is called with system `b` of the batch at the positions `x`, and `E x i` is the energy
returned for its atom `i`. -/
structure AtomEnergies (env : Env) (T : Tables) (ext : Ext) (numbers : Tensor ℕ)
    (positions : (Fin n → Spec.E3) → Tensor ℝ) (charge : Tensor ℝ) (p : Param) (o : DftOpts)
    (B : Shape) (R : RefCfg) (cn : Spec.CN) (eeq : Spec.EEQ) (P : Spec.D4Par) (b : Idx)
    (E : (Fin n → Spec.E3) → Fin n → ℝ) : Prop where
  call : ∀ x, Call env T ext numbers (positions x) charge p o n B R cn eeq P
  batch : InB B b
  at_pos : ∀ x, coords (positions x) n b = x
  atom : ∀ x e, dftd4 env T ext numbers (positions x) charge p o = .ok e →
    ∀ i : Fin n, E x i = e.get (i.1 :: b)

variable {positions : (Fin n → Spec.E3) → Tensor ℝ}

/-- What continuity needs besides the cutoffs: no underflow, reference data as in the shipped tables,
damping radii that are not negative, continuous coordination numbers and charges of the real atoms, and
no atom that has lost its effective nuclear charge. Atoms may coincide. -/
structure Continuable (env : Env) (T : Tables) (numbers : Tensor ℕ)
    (positions : (Fin n → Spec.E3) → Tensor ℝ) (charge : Tensor ℝ) (o : DftOpts)
    (R : RefCfg) (cn : Spec.CN) (eeq : Spec.EEQ) (P : Spec.D4Par) (b : Idx)
    (x : Fin n → Spec.E3) : Prop where
  fl : env.fl = id
  physical : T.Physical R.rq
  gc : 0 < R.gc
  a1 : 0 ≤ P.a1
  a2 : 0 ≤ P.a2
  cn_continuous : ∀ i, elements numbers n b i ≠ 0 →
    ContinuousAt (fun y => cn n (elements numbers n b) y i) x
  eeq_continuous : o.opts.q = none → ∀ i, elements numbers n b i ≠ 0 → ContinuousAt (fun y =>
    eeq n (o.opts.cutoff.getD {}).cnEeq (elements numbers n b) y (charge.get b) i) x
  charged : ∀ i, elements numbers n b i ≠ 0 → env.eps <
    (system T cn eeq numbers (positions x) charge o.opts n b).q i + T.zeff (elements numbers n b i)
  zeff : ∀ i, elements numbers n b i ≠ 0 → env.eps < T.zeff (elements numbers n b i)
  /-- the cutoffs exceed the regularised distance of coinciding atoms -/
  cut2 : √env.eps < (o.opts.cutoff.getD {}).disp2
  cut3 : √env.eps < (o.opts.cutoff.getD {}).disp3

/-- Two real atoms of the system at distance `c`. -/
def AtCutoff (numbers : Tensor ℕ) (b : Idx) (x : Fin n → Spec.E3) (c : ℝ) (i j : Fin n) : Prop :=
  elements numbers n b i ≠ 0 ∧ elements numbers n b j ≠ 0 ∧ i ≠ j ∧ dist (x i) (x j) = c

/-- **C82.** When the geometry `y` approaches `x`, the energies approach those at `x` without the terms of
the pairs and triples that are beyond a cutoff on the way to `x` and at the cutoff in `x`. -/
theorem C82_limit {ι : Type*} {l : Filter ι} {y : ι → Fin n → Spec.E3}
    {out2 out3 : Fin n → Fin n → Prop}
    (h : AtomEnergies env T ext numbers positions charge p o B R cn eeq P b E)
    (hx : Continuable env T numbers positions charge o R cn eeq P b x) (hy : Tendsto y l (𝓝 x))
    (h2 : ∀ i j, AtCutoff numbers b x (o.opts.cutoff.getD {}).disp2 i j →
      ∀ᶠ t in l, (dist (y t i) (y t j) ≤ (o.opts.cutoff.getD {}).disp2 ↔ ¬ out2 i j))
    (h3 : ∀ i j, AtCutoff numbers b x (o.opts.cutoff.getD {}).disp3 i j →
      ∀ᶠ t in l, (dist (y t i) (y t j) ≤ (o.opts.cutoff.getD {}).disp3 ↔ ¬ out3 i j)) (i : Fin n) :
    let c := o.opts.cutoff.getD {}
    let S := Spec.d4Settings (R.spec T env.eps) env.eps P c.disp2 c.disp3
    let M := system T cn eeq numbers (positions x) charge o.opts n b
    Tendsto (fun t => E (y t) i) l (𝓝 (E x i +
      1 / 2 * (∑ j, if AtCutoff numbers b x c.disp2 i j ∧ out2 i j then
        Spec.pairTerm S M M.atom i j else 0) -
      1 / 6 * (∑ j, ∑ k, if (i ≠ k ∧ M.Z i ≠ 0 ∧ M.Z j ≠ 0 ∧ M.Z k ≠ 0 ∧ i ≠ j ∧ j ≠ k) ∧
          (dist (x i) (x j) ≤ c.disp3 ∧ dist (x j) (x k) ≤ c.disp3) ∧
          (AtCutoff numbers b x c.disp3 i j ∧ out3 i j ∨ AtCutoff numbers b x c.disp3 j k ∧ out3 j k) then
        Spec.tripleTerm S M (Spec.c9 S M.neutral) (Spec.R0 S M) i j k else 0))) := by
  intro c S M
  have hpos : ∀ y i, (system T cn eeq numbers (positions y) charge o.opts n b).pos i = y i :=
    fun y i => congrFun (h.at_pos y) i
  have hE : ∀ y, E y i = Spec.energy S (system T cn eeq numbers (positions y) charge o.opts n b) i := by
    intro y
    obtain ⟨e, h1, -, hv⟩ := (h.call y).eval
    rw [h.atom y e h1, hv b h.batch i]
    exact energy_d4Settings hx.fl hx.physical hx.gc ((h.call y).args.Z_lt h.batch) i
  have le_iff : ∀ {c d : ℝ}, √env.eps < c → (max d √env.eps ≤ c ↔ d ≤ c) := fun hc =>
    ⟨fun h => (le_max_left _ _).trans h, fun h => max_le h hc.le⟩
  have eq_iff : ∀ {c d : ℝ}, √env.eps < c → (max d √env.eps = c ↔ d = c) := by
    intro c d hc
    constructor
    · intro h
      rcases max_choice d √env.eps with h' | h' <;> rw [h'] at h
      · exact h
      · exact absurd h hc.ne
    · rintro rfl
      exact max_eq_left hc.le
  have hr : ∀ y i j, (system T cn eeq numbers (positions y) charge o.opts n b).r env.eps i j =
      max (dist (y i) (y j)) √env.eps := by
    intro y i j
    rw [Spec.r_eq_max env.eps_pos, hpos, hpos]
  have happ : Spec.Approaches l
      (fun t => system T cn eeq numbers (positions (y t)) charge o.opts n b) M := by
    constructor
    · intro t; rfl
    · intro t; rfl
    · intro i _
      simp only [hpos, M]
      exact ((continuous_apply i).tendsto x).comp hy
    · intro i hi
      show Tendsto (fun t => cn n (elements numbers n b) (coords (positions (y t)) n b) i) l
        (𝓝 (cn n (elements numbers n b) (coords (positions x) n b) i))
      simp only [h.at_pos]
      exact (hx.cn_continuous i hi).tendsto.comp hy
    · intro i hi
      cases hq : o.opts.q with
      | some q =>
        have : ∀ z, (system T cn eeq numbers (positions z) charge o.opts n b).q i = q.get (i.1 :: b) := by
          intro z; simp only [system, hq]
        simp only [this, M]
        exact tendsto_const_nhds
      | none =>
        have : ∀ z, (system T cn eeq numbers (positions z) charge o.opts n b).q i =
            eeq n c.cnEeq (elements numbers n b) z (charge.get b) i := by
          intro z; simp only [system, hq, h.at_pos, c]
        simp only [this, M]
        exact (hx.eeq_continuous hq i hi).tendsto.comp hy
  have key := Spec.tendsto_energy (C := R.spec T env.eps) (ε := env.eps) (P := P) (cut2 := c.disp2)
    (cut3 := c.disp3) (out2 := out2) (out3 := out3) env.eps_pos env.eps_pos happ hx.charged hx.zeff
    (fun i j => add_nonneg (mul_nonneg hx.a1 (Real.sqrt_nonneg _)) hx.a2)
    (fun i j hi hj hij he => by
      simp only [hr, le_iff hx.cut2, M, c] at he ⊢
      exact h2 i j ⟨hi, hj, hij, (eq_iff hx.cut2).1 he⟩)
    (fun i j hi hj hij he => by
      simp only [hr, le_iff hx.cut3, M, c] at he ⊢
      exact h3 i j ⟨hi, hj, hij, (eq_iff hx.cut3).1 he⟩) i
  rw [show (fun t => E (y t) i) = _ from funext fun t => hE (y t), hE x]
  refine Eq.mp (congrArg (fun v => Tendsto _ l (𝓝 v)) ?_) key
  refine congrArg₂ _ (congrArg _ (congrArg _ (Finset.sum_congr rfl fun j _ => ?_)))
    (congrArg _ (Finset.sum_congr rfl fun j _ => Finset.sum_congr rfl fun k _ => ?_))
  · refine if_congr ?_ rfl rfl
    rw [show M.r env.eps i j = _ from hr x i j, eq_iff hx.cut2]
    unfold AtCutoff
    show (elements numbers n b i ≠ 0 ∧ elements numbers n b j ≠ 0 ∧ _) ↔ _
    tauto
  · refine if_congr ?_ rfl rfl
    rw [show M.r env.eps i j = _ from hr x i j, show M.r env.eps j k = _ from hr x j k,
      eq_iff hx.cut3, eq_iff hx.cut3, le_iff hx.cut3, le_iff hx.cut3]
    unfold AtCutoff
    show (elements numbers n b i ≠ 0 ∧ elements numbers n b j ≠ 0 ∧ elements numbers n b k ≠ 0 ∧ _) ↔
      (_ ∧ elements numbers n b i ≠ 0 ∧ elements numbers n b j ≠ 0 ∧ elements numbers n b k ≠ 0 ∧ _) ∧ _
    tauto

/-- **C82.** If pairs at a cutoff are not beyond it on the way to `x`, the energies approach those at `x`:
inside the cutoffs the surface is continuous. -/
theorem C82_inside {ι : Type*} {l : Filter ι} {y : ι → Fin n → Spec.E3}
    (h : AtomEnergies env T ext numbers positions charge p o B R cn eeq P b E)
    (hx : Continuable env T numbers positions charge o R cn eeq P b x) (hy : Tendsto y l (𝓝 x))
    (h2 : ∀ i j, AtCutoff numbers b x (o.opts.cutoff.getD {}).disp2 i j →
      ∀ᶠ t in l, dist (y t i) (y t j) ≤ (o.opts.cutoff.getD {}).disp2)
    (h3 : ∀ i j, AtCutoff numbers b x (o.opts.cutoff.getD {}).disp3 i j →
      ∀ᶠ t in l, dist (y t i) (y t j) ≤ (o.opts.cutoff.getD {}).disp3) (i : Fin n) :
    Tendsto (fun t => E (y t) i) l (𝓝 (E x i)) := by
  have key := C82_limit (out2 := fun _ _ => False) (out3 := fun _ _ => False) h hx hy
    (fun i j hc => (h2 i j hc).mono fun t ht => ⟨fun _ => id, fun _ => ht⟩)
    (fun i j hc => (h3 i j hc).mono fun t ht => ⟨fun _ => id, fun _ => ht⟩) i
  simpa using key

/-- **C82.** Where no distance equals a cutoff, the energies of all atoms are continuous, even if atoms
coincide. -/
theorem C82_continuous
    (h : AtomEnergies env T ext numbers positions charge p o B R cn eeq P b E)
    (hx : Continuable env T numbers positions charge o R cn eeq P b x)
    (h2 : ∀ i j, ¬ AtCutoff numbers b x (o.opts.cutoff.getD {}).disp2 i j)
    (h3 : ∀ i j, ¬ AtCutoff numbers b x (o.opts.cutoff.getD {}).disp3 i j) (i : Fin n) :
    ContinuousAt (fun y => E y i) x :=
  C82_inside h hx tendsto_id (fun i j hc => absurd hc (h2 i j)) (fun i j hc => absurd hc (h3 i j)) i

/-- **C82.** Where a distance equals the two-body cutoff, the energies jump: if the system is expanded a
little, the attraction of the pairs at the cutoff is lost at once. -/
theorem C82_jump
    (h : AtomEnergies env T ext numbers positions charge p o B R cn eeq P b E)
    (hx : Continuable env T numbers positions charge o R cn eeq P b x)
    (h3 : ∀ i j, ¬ AtCutoff numbers b x (o.opts.cutoff.getD {}).disp3 i j) (h6 : 0 < P.s6) (h8 : 0 ≤ P.s8)
    (h10 : 0 ≤ P.s10) (hQ : ∀ i, 0 ≤ (system T cn eeq numbers (positions x) charge o.opts n b).Q i)
    {i j : Fin n} (hij : AtCutoff numbers b x (o.opts.cutoff.getD {}).disp2 i j)
    (hpi : T.Polarizable env R (elements numbers n b i))
    (hpj : T.Polarizable env R (elements numbers n b j)) :
    let c := o.opts.cutoff.getD {}
    let S := Spec.d4Settings (R.spec T env.eps) env.eps P c.disp2 c.disp3
    let M := system T cn eeq numbers (positions x) charge o.opts n b
    let J := 1 / 2 * ∑ j, if AtCutoff numbers b x c.disp2 i j then Spec.pairTerm S M M.atom i j else 0
    0 < J ∧ Tendsto (fun t : ℝ => E (fun k => (1 + t) • x k) i) (𝓝[>] 0) (𝓝 (E x i + J)) ∧
      ¬ ContinuousAt (fun y => E y i) x := by
  intro c S M J
  have hy : Tendsto (fun t : ℝ => fun k => (1 + t) • x k) (𝓝[>] 0) (𝓝 x) := by
    have : Continuous fun t : ℝ => fun k => (1 + t) • x k :=
      continuous_pi fun k => (continuous_const.add continuous_id).smul continuous_const
    have := (this.tendsto 0).mono_left (nhdsWithin_le_nhds (s := Set.Ioi 0))
    simpa using this
  have hd : ∀ t : ℝ, 0 < t → ∀ a b' : Fin n,
      dist ((1 + t) • x a) ((1 + t) • x b') = (1 + t) * dist (x a) (x b') := by
    intro t ht a b'
    rw [dist_smul₀, Real.norm_of_nonneg (by linarith)]
  have key := C82_limit (out2 := fun _ _ => True) (out3 := fun _ _ => False) h hx hy
    (fun a b' hc => by
      filter_upwards [self_mem_nhdsWithin] with t ht
      have h0 : 0 < (o.opts.cutoff.getD {}).disp2 := lt_of_le_of_lt (Real.sqrt_nonneg _) hx.cut2
      rw [hd t ht, hc.2.2.2]
      refine ⟨fun hle => ?_, fun hf => absurd trivial hf⟩
      have := mul_pos (show 0 < t from ht) h0
      linarith)
    (fun a b' hc => absurd hc (h3 a b')) i
  have hJt : Tendsto (fun t : ℝ => E (fun k => (1 + t) • x k) i) (𝓝[>] 0) (𝓝 (E x i + J)) := by
    simpa only [and_true, and_false, or_self, if_false, Finset.sum_const_zero, mul_zero, sub_zero]
      using key
  have hJ : 0 < J := by
    have hcong : ∀ j, Spec.pairTerm (Spec.d4Settings (R.spec T env.eps) env.eps P
        (o.opts.cutoff.getD {}).disp2 (o.opts.cutoff.getD {}).disp3)
        (system T cn eeq numbers (positions x) charge o.opts n b)
        (system T cn eeq numbers (positions x) charge o.opts n b).atom i j =
        Spec.pairTerm (d4Computed env T R P (o.opts.cutoff.getD {}))
        (system T cn eeq numbers (positions x) charge o.opts n b)
        (system T cn eeq numbers (positions x) charge o.opts n b).atom i j := by
      intro j
      have hZ := (h.call x).args.Z_lt (cn := cn) (eeq := eeq) h.batch
      have := c6At_spec (env := env) (T := T) (R := R)
        (A := (system T cn eeq numbers (positions x) charge o.opts n b).atom i)
        (A' := (system T cn eeq numbers (positions x) charge o.opts n b).atom j)
        hx.fl hx.physical hx.gc (hZ i) (hZ j)
      unfold Spec.pairTerm
      simp only [d4Computed, this]
      rfl
    refine mul_pos (by norm_num) (Finset.sum_pos' (fun j _ => ?_) ⟨j, Finset.mem_univ j, ?_⟩)
    · split_ifs
      · rw [hcong]
        exact (pairTerm_nonneg h6.le h8 h10 hQ i j).1
      · exact le_rfl
    · rw [if_pos hij, hcong]
      have hZ := (h.call x).args.Z_lt (cn := cn) (eeq := eeq) h.batch
      exact (pairTerm_nonneg h6.le h8 h10 hQ i j).2 h6
        (c6At_pos hx.fl hx.physical hx.gc (hZ i) (hZ j) hpi hpj)
  refine ⟨hJ, hJt, fun hc => ?_⟩
  have := tendsto_nhds_unique (hc.tendsto.comp hy) hJt
  linarith

end

/-! ## A concrete case: hydrogen fluoride (with a padding atom) next to water -/

namespace Demo

noncomputable def atomHF (x : Fin 3 → Spec.E3) (i : Fin 3) : ℝ :=
  match dftd4 env T ext numbers (positionsAt x) charge param with
  | .ok e => e.get [i.1, 1]
  | .error _ => 0

theorem atomEnergies : AtomEnergies env T ext numbers positionsAt charge param {} [2] .d4 cn eeq par
    [1] atomHF where
  call := totalEnergy.call
  batch := totalEnergy.batch
  at_pos := totalEnergy.at_pos
  atom x e he i := by simp only [atomHF, he]

theorem sqrt_eps_lt : √env.eps < 2 := by
  rw [Real.sqrt_lt' (by norm_num)]
  show (1 : ℝ) / 2 ^ 52 < _
  norm_num

theorem continuableHF (x : Fin 3 → Spec.E3) :
    Continuable env T numbers positionsAt charge {} .d4 cn eeq par [1] x where
  fl := rfl
  physical := physical
  gc := by norm_num [RefCfg.d4]
  a1 := by norm_num [par]
  a2 := by norm_num [par]
  cn_continuous i _ := by
    refine Continuous.continuousAt ?_
    unfold cn
    refine continuous_finset_sum _ fun j _ => ?_
    split_ifs
    · exact ((continuous_apply i).dist (continuous_apply j)).neg.rexp
    · exact continuous_const
  eeq_continuous _ i _ := by
    unfold eeq
    exact continuousAt_const
  charged i hi := by
    have hq : (0 : ℝ) ≤ eeq 3 25 (elements numbers 3 [1]) (coords (positionsAt x) 3 [1])
        (charge.get [1]) i := by
      unfold eeq charge
      rw [if_pos hi]
      exact div_nonneg zero_le_one (Finset.sum_nonneg fun j _ => by split <;> norm_num)
    have hz : (1 : ℝ) ≤ (elements numbers 3 [1] i : ℕ) := by
      exact_mod_cast Nat.one_le_iff_ne_zero.2 hi
    show (1 / 2 ^ 52 : ℝ) < eeq 3 25 (elements numbers 3 [1]) (coords (positionsAt x) 3 [1])
        (charge.get [1]) i + (elements numbers 3 [1] i : ℕ)
    have : (1 / 2 ^ 52 : ℝ) < 1 := by norm_num
    linarith
  zeff i hi := by
    have hz : (1 : ℝ) ≤ (elements numbers 3 [1] i : ℕ) := by
      exact_mod_cast Nat.one_le_iff_ne_zero.2 hi
    show (1 / 2 ^ 52 : ℝ) < (elements numbers 3 [1] i : ℕ)
    have : (1 / 2 ^ 52 : ℝ) < 1 := by norm_num
    linarith
  cut2 := sqrt_eps_lt.trans (by norm_num [Defaults.disp2Cutoff])
  cut3 := sqrt_eps_lt.trans (by norm_num [Defaults.disp3Cutoff])

/-- Hydrogen fluoride with bond length `r`. -/
noncomputable def stretched (r : ℝ) : Fin 3 → Spec.E3 := fun i =>
  EuclideanSpace.single 0 (if i = 1 then r else 0)

theorem dist_stretched {r : ℝ} (hr : 0 ≤ r) {i j : Fin 3} (hi : elements numbers 3 [1] i ≠ 0)
    (hj : elements numbers 3 [1] j ≠ 0) (hij : i ≠ j) : dist (stretched r i) (stretched r j) = r := by
  fin_cases i <;> fin_cases j <;> simp [elements, numbers] at hi hj hij
  all_goals
    simp [stretched, abs_of_nonneg hr]

theorem not_cut {r c : ℝ} (hr : 0 ≤ r) (h : r ≠ c) (i j : Fin 3) :
    ¬ AtCutoff numbers [1] (stretched r) c i j := by
  rintro ⟨h1, h2, h3, h4⟩
  rw [dist_stretched hr h1 h2 h3] at h4
  exact h h4

/-- The energies are continuous also where both nuclei coincide. -/
example (i : Fin 3) : ContinuousAt (fun y => atomHF y i) (stretched 0) :=
  C82_continuous atomEnergies (continuableHF (stretched 0))
    (not_cut (r := 0) le_rfl (by norm_num [Defaults.disp2Cutoff]))
    (not_cut (r := 0) le_rfl (by norm_num [Defaults.disp3Cutoff])) i

/-- From below 60 Bohr they are continuous, ... -/
example (i : Fin 3) : Tendsto (fun r => atomHF (stretched r) i) (𝓝[<] 60) (𝓝 (atomHF (stretched 60) i)) := by
  refine C82_inside atomEnergies (continuableHF _) ?_ (fun i j hc => ?_) (fun i j hc => ?_) i
  · have : Continuous stretched := by
      refine continuous_pi fun i => ?_
      unfold stretched
      split_ifs
      · exact (PiLp.continuous_toLp 2 _).comp (continuous_pi fun k => by
          by_cases hk : k = 0 <;> simp [hk, continuous_id', continuous_const])
      · exact continuous_const
    exact (this.tendsto 60).mono_left nhdsWithin_le_nhds
  · filter_upwards [self_mem_nhdsWithin, eventually_nhdsWithin_of_eventually_nhds
      (lt_mem_nhds (show (0 : ℝ) < 60 by norm_num))] with r hr h0
    rw [dist_stretched (le_of_lt h0) hc.1 hc.2.1 hc.2.2.1]
    exact le_of_lt (lt_of_lt_of_le hr (by norm_num [Defaults.disp2Cutoff]))
  · exact absurd hc (not_cut (by norm_num) (by norm_num [Defaults.disp3Cutoff]) i j)

/-- ... and there they jump. -/
example : ¬ ContinuousAt (fun y => atomHF y 0) (stretched 60) := by
  refine (C82_jump atomEnergies (continuableHF _)
    (not_cut (by norm_num) (by norm_num [Defaults.disp3Cutoff])) (by norm_num [par]) (by norm_num [par])
    (by norm_num [par]) (fun i => ?_) (i := 0) (j := 1) ⟨by simp [elements, numbers],
      by simp [elements, numbers], by decide, ?_⟩ (shipped_polarizable ?_ ?_ ?_)
    (shipped_polarizable ?_ ?_ ?_)).2.2
  · exact Real.sqrt_nonneg _
  · exact dist_stretched (by norm_num) (by simp [elements, numbers]) (by simp [elements, numbers])
      (by decide)
  all_goals simp [elements, numbers]

end Demo

end TadDftd4
