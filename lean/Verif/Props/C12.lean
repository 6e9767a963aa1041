import Verif.Props.C10
import Verif.Props.C09

/-!
# C12: the three-body energy is shared equally by the atoms of each triple
-/

open scoped Classical

namespace TadDftd4

open Tensor

/-- Sum over ordered triples as sum over increasing triples. -/
theorem sum_triples {n : ℕ} (G : Fin n → Fin n → Fin n → ℝ)
    (h : ∀ i j k, i = j ∨ i = k ∨ j = k → G i j k = 0) :
    ∑ i, ∑ j, ∑ k, G i j k = ∑ i, ∑ j, ∑ k, if i < j ∧ j < k then
      G i j k + G i k j + G j i k + G j k i + G k i j + G k j i else 0 := by
  have split : ∀ i j k, G i j k = (if i < j ∧ j < k then G i j k else 0) +
      (if i < k ∧ k < j then G i j k else 0) + (if j < i ∧ i < k then G i j k else 0) +
      (if k < i ∧ i < j then G i j k else 0) + (if j < k ∧ k < i then G i j k else 0) +
      (if k < j ∧ j < i then G i j k else 0) := by
    intro i j k
    by_cases h1 : i = j
    · rw [h i j k (Or.inl h1)]; simp
    by_cases h2 : i = k
    · rw [h i j k (Or.inr (Or.inl h2))]; simp
    by_cases h3 : j = k
    · rw [h i j k (Or.inr (Or.inr h3))]; simp
    rcases lt_or_gt_of_ne h1 with h1 | h1 <;> rcases lt_or_gt_of_ne h2 with h2 | h2 <;>
      rcases lt_or_gt_of_ne h3 with h3 | h3 <;>
      first
        | (exfalso; omega)
        | simp [h1, h2, h3, h1.not_gt, h2.not_gt, h3.not_gt]
  have c23 : ∀ F : Fin n → Fin n → Fin n → ℝ,
      ∑ i, ∑ j, ∑ k, F i j k = ∑ i, ∑ j, ∑ k, F i k j := fun F =>
    Finset.sum_congr rfl fun i _ => Finset.sum_comm
  have c12 : ∀ F : Fin n → Fin n → Fin n → ℝ,
      ∑ i, ∑ j, ∑ k, F i j k = ∑ i, ∑ j, ∑ k, F j i k := fun F => Finset.sum_comm
  calc ∑ i, ∑ j, ∑ k, G i j k = _ := Finset.sum_congr rfl fun i _ => Finset.sum_congr rfl fun j _ =>
        Finset.sum_congr rfl fun k _ => split i j k
    _ = _ := by
      simp only [Finset.sum_add_distrib]
      have hs : (∑ i, ∑ j, ∑ k, if i < j ∧ j < k then
          G i j k + G i k j + G j i k + G j k i + G k i j + G k j i else 0) =
          (∑ i, ∑ j, ∑ k, if i < j ∧ j < k then G i j k else 0) +
          (∑ i, ∑ j, ∑ k, if i < j ∧ j < k then G i k j else 0) +
          (∑ i, ∑ j, ∑ k, if i < j ∧ j < k then G j i k else 0) +
          (∑ i, ∑ j, ∑ k, if i < j ∧ j < k then G j k i else 0) +
          (∑ i, ∑ j, ∑ k, if i < j ∧ j < k then G k i j else 0) +
          (∑ i, ∑ j, ∑ k, if i < j ∧ j < k then G k j i else 0) := by
        simp only [← Finset.sum_add_distrib]
        refine Finset.sum_congr rfl fun i _ => Finset.sum_congr rfl fun j _ =>
          Finset.sum_congr rfl fun k _ => ?_
        split_ifs <;> simp
      rw [hs]
      congr 1
      · congr 1
        · congr 1
          · congr 1
            · congr 1
              exact c23 _
            · exact c12 _
          · rw [c23, c12]
        · rw [c12, c23]
      · rw [c12, c23, c12]

/-- Sum over ordered pairs as sum over increasing pairs. -/
theorem sum_pairs {n : ℕ} (G : Fin n → Fin n → ℝ) (h : ∀ j, G j j = 0) :
    ∑ j, ∑ k, G j k = ∑ j, ∑ k, if j < k then G j k + G k j else 0 := by
  have split : ∀ j k, G j k = (if j < k then G j k else 0) + (if k < j then G j k else 0) := by
    intro j k
    rcases lt_trichotomy j k with h1 | h1 | h1
    · simp [h1, h1.not_gt]
    · subst h1; simp [h]
    · simp [h1, h1.not_gt]
  calc ∑ j, ∑ k, G j k = _ := Finset.sum_congr rfl fun i _ => Finset.sum_congr rfl fun j _ => split i j
    _ = _ := by
      simp only [Finset.sum_add_distrib]
      rw [Finset.sum_comm (f := fun j k => if k < j then G j k else 0)]
      simp only [← Finset.sum_add_distrib]
      refine Finset.sum_congr rfl fun i _ => Finset.sum_congr rfl fun j _ => ?_
      split_ifs <;> simp

/-- C9 coefficients and radii of entry `b` do not depend on the order of the atoms. -/
structure Sym3 (c9 radii : Tensor ℝ) (n : ℕ) (b : Idx) : Prop where
  swap12 : ∀ i j k : Fin n, c9.get (k.1 :: j.1 :: i.1 :: b) = c9.get (k.1 :: i.1 :: j.1 :: b)
  swap23 : ∀ i j k : Fin n, c9.get (k.1 :: j.1 :: i.1 :: b) = c9.get (j.1 :: k.1 :: i.1 :: b)
  radii : ∀ i j : Fin n, radii.get (j.1 :: i.1 :: b) = radii.get (i.1 :: j.1 :: b)

section
variable {env : Env} {numbers : Tensor ℕ} {positions c9 radii : Tensor ℝ} {n : ℕ} {B : Shape}
  {cut s9 alp : ℝ} {b : Idx}

theorem Sym3.atm12 (h : Sym3 c9 radii n b) (i j k : Fin n) :
    atmAt positions c9 radii n s9 alp b i j k = atmAt positions c9 radii n s9 alp b j i k := by
  unfold atmAt
  rw [Spec.atm_swap12, h.swap12, h.radii i j]
  congr 1; ring

theorem Sym3.atm23 (h : Sym3 c9 radii n b) (i j k : Fin n) :
    atmAt positions c9 radii n s9 alp b i j k = atmAt positions c9 radii n s9 alp b i k j := by
  unfold atmAt
  rw [Spec.atm_swap23, h.swap23, h.radii j k]
  congr 1; ring

theorem RealTriple.swap12 {i j k : Fin n} (h : RealTriple numbers b i j k) :
    RealTriple numbers b j i k := ⟨h.2.1, h.1, h.2.2.1, h.2.2.2.1.symm, h.2.2.2.2.2, h.2.2.2.2.1⟩
theorem RealTriple.swap23 {i j k : Fin n} (h : RealTriple numbers b i j k) :
    RealTriple numbers b i k j := ⟨h.1, h.2.2.1, h.2.1, h.2.2.2.2.1, h.2.2.2.1, h.2.2.2.2.2.symm⟩

/-- All real atoms of the entry are within the cutoff of each other. -/
def AllWithin (numbers : Tensor ℕ) (positions : Tensor ℝ) (n : ℕ) (b : Idx) (cut : ℝ) : Prop :=
  ∀ i j : Fin n, numbers.get (i.1 :: b) ≠ 0 → numbers.get (j.1 :: b) ≠ 0 →
    dAt positions n b i j ≤ cut

/-- Within the cutoff the energy of an atom is a third of the Axilrod-Teller-Muto term of each
unordered triple it belongs to. -/
theorem C12_atom (h : D3Shapes numbers positions c9 radii n B) (hs : Sym3 c9 radii n b)
    (hcut : 0 ≤ cut) (hb : InB B b) (hsep : Separated env numbers positions n b)
    (hall : AllWithin numbers positions n b cut) (i : Fin n) :
    (atmDispersion env numbers positions c9 radii cut .zero s9 alp).get (i.1 :: b) =
      ∑ j : Fin n, ∑ k : Fin n, if j < k ∧ RealTriple numbers b i j k then
        atmAt positions c9 radii n s9 alp b i j k / 3 else 0 := by
  rw [C11_energy h hcut hb hsep i, sum_pairs]
  · rw [Finset.sum_div]
    refine Finset.sum_congr rfl fun j _ => ?_
    rw [Finset.sum_div]
    refine Finset.sum_congr rfl fun k _ => ?_
    by_cases hjk : j < k
    · by_cases hr : RealTriple numbers b i j k
      · have hr' := hr.swap23
        rw [if_pos hjk, if_pos ⟨hr, hall _ _ hr.1 hr.2.1, hall _ _ hr.2.1 hr.2.2.1⟩,
          if_pos ⟨hr', hall _ _ hr.1 hr.2.2.1, hall _ _ hr.2.2.1 hr.2.1⟩, if_pos ⟨hjk, hr⟩,
          hs.atm23 i k j]
        ring
      · rw [if_pos hjk, if_neg fun h => hr h.1, if_neg fun h => hr h.1.swap23,
          if_neg fun h => hr h.2]
        norm_num
    · rw [if_neg hjk, if_neg fun h => hjk h.1]
      norm_num
  · intro j
    exact if_neg fun h => h.1.2.2.2.2.2 rfl

/-- Number of pairs of short sides that share a corner, divided by three: 1 if the triangle is
within the cutoff, a third if exactly one side is longer, otherwise zero. -/
noncomputable def cutShare (positions : Tensor ℝ) (n : ℕ) (b : Idx) (cut : ℝ) (i j k : Fin n) : ℝ :=
  ((if dAt positions n b i j ≤ cut ∧ dAt positions n b j k ≤ cut then 1 else 0) +
   (if dAt positions n b i j ≤ cut ∧ dAt positions n b i k ≤ cut then 1 else 0) +
   (if dAt positions n b i k ≤ cut ∧ dAt positions n b j k ≤ cut then 1 else 0)) / 3

/-- The total three-body energy for any cutoff: each unordered triple contributes with its share
`cutShare` (where C10 demands 1 or 0). -/
theorem C10_total_partial (h : D3Shapes numbers positions c9 radii n B) (hs : Sym3 c9 radii n b)
    (hcut : 0 ≤ cut) (hb : InB B b) (hsep : Separated env numbers positions n b) :
    ∑ i : Fin n, (atmDispersion env numbers positions c9 radii cut .zero s9 alp).get (i.1 :: b) =
      ∑ i : Fin n, ∑ j : Fin n, ∑ k : Fin n, if i < j ∧ j < k ∧ RealTriple numbers b i j k then
        cutShare positions n b cut i j k * atmAt positions c9 radii n s9 alp b i j k else 0 := by
  rw [Finset.sum_congr rfl fun i _ => C11_energy h hcut hb hsep i]
  rw [← Finset.sum_div, sum_triples]
  · rw [Finset.sum_div]
    refine Finset.sum_congr rfl fun i _ => ?_
    rw [Finset.sum_div]
    refine Finset.sum_congr rfl fun j _ => ?_
    rw [Finset.sum_div]
    refine Finset.sum_congr rfl fun k _ => ?_
    by_cases ho : i < j ∧ j < k
    · by_cases hr : RealTriple numbers b i j k
      · have e : ∀ x y z : Fin n, RealTriple numbers b x y z →
            atmAt positions c9 radii n s9 alp b x y z = atmAt positions c9 radii n s9 alp b i j k →
            (if RealTriple numbers b x y z ∧
              dist (coords positions n b x) (coords positions n b y) ≤ cut ∧
              dist (coords positions n b y) (coords positions n b z) ≤ cut then
              atmAt positions c9 radii n s9 alp b x y z else 0) =
            (if dAt positions n b x y ≤ cut ∧ dAt positions n b y z ≤ cut then 1 else 0) *
              atmAt positions c9 radii n s9 alp b i j k := by
          intro x y z hr he
          rw [he, ite_mul, one_mul, zero_mul]
          exact ite_iff ⟨fun h => h.2, fun h => ⟨hr, h⟩⟩ rfl rfl
        rw [if_pos ho, e i j k hr rfl, e i k j hr.swap23 (hs.atm23 _ _ _),
          e j i k hr.swap12 (hs.atm12 _ _ _),
          e j k i hr.swap12.swap23 (by rw [hs.atm23, hs.atm12]),
          e k i j hr.swap23.swap12 (by rw [hs.atm12, hs.atm23]),
          e k j i hr.swap23.swap12.swap23 (by rw [hs.atm23, hs.atm12, hs.atm23]),
          if_pos (show i < j ∧ j < k ∧ RealTriple numbers b i j k from ⟨ho.1, ho.2, hr⟩)]
        unfold cutShare dAt
        rw [dist_comm (coords positions n b j) (coords positions n b i),
          dist_comm (coords positions n b k) (coords positions n b i),
          dist_comm (coords positions n b k) (coords positions n b j)]
        generalize dist (coords positions n b i) (coords positions n b j) = x
        generalize dist (coords positions n b i) (coords positions n b k) = y
        generalize dist (coords positions n b j) (coords positions n b k) = z
        by_cases h1 : x ≤ cut <;> by_cases h2 : y ≤ cut <;> by_cases h3 : z ≤ cut <;>
          simp only [h1, h2, h3, and_true, and_false, true_and, false_and, if_true, if_false] <;>
          ring
      · have hr' : ∀ x y z : Fin n, (RealTriple numbers b x y z → RealTriple numbers b i j k) →
            ∀ (P : Prop) [Decidable (RealTriple numbers b x y z ∧ P)] (a : ℝ),
            (if RealTriple numbers b x y z ∧ P then a else 0) = 0 := fun x y z hx P _ a =>
          if_neg fun h => hr (hx h.1)
        rw [if_pos ho, hr' i j k id, hr' i k j fun h => h.swap23,
          hr' j i k fun h => h.swap12, hr' j k i fun h => h.swap23.swap12,
          hr' k i j fun h => h.swap12.swap23, hr' k j i fun h => h.swap23.swap12.swap23,
          if_neg fun h : i < j ∧ j < k ∧ RealTriple numbers b i j k => hr h.2.2]
        norm_num
    · rw [if_neg ho, if_neg fun h => ho ⟨h.1, h.2.1⟩]
      norm_num
  · intro i j k hijk
    refine if_neg fun h => ?_
    obtain ⟨-, -, -, h1, h2, h3⟩ := h.1
    rcases hijk with h | h | h
    · exact h1 h
    · exact h2 h
    · exact h3 h

/-- Within the cutoff the energies add up to one Axilrod-Teller-Muto term per unordered triple of
distinct real atoms. -/
theorem C12_total (h : D3Shapes numbers positions c9 radii n B) (hs : Sym3 c9 radii n b)
    (hcut : 0 ≤ cut) (hb : InB B b) (hsep : Separated env numbers positions n b)
    (hall : AllWithin numbers positions n b cut) :
    ∑ i : Fin n, (atmDispersion env numbers positions c9 radii cut .zero s9 alp).get (i.1 :: b) =
      ∑ i : Fin n, ∑ j : Fin n, ∑ k : Fin n, if i < j ∧ j < k ∧ RealTriple numbers b i j k then
        atmAt positions c9 radii n s9 alp b i j k else 0 := by
  rw [C10_total_partial h hs hcut hb hsep]
  refine Finset.sum_congr rfl fun i _ => Finset.sum_congr rfl fun j _ =>
    Finset.sum_congr rfl fun k _ => ?_
  split_ifs with hc
  · obtain ⟨-, -, h1, h2, h3, -⟩ := hc
    unfold cutShare
    rw [if_pos ⟨hall i j h1 h2, hall j k h2 h3⟩, if_pos ⟨hall i j h1 h2, hall i k h1 h3⟩,
      if_pos ⟨hall i k h1 h3, hall j k h2 h3⟩]
    ring
  · rfl

/-- Fewer than three real atoms: the three-body energies are exactly zero, for every damping
function that can be called, and whatever the coefficients, cutoff and geometry. -/
theorem C12_few_atoms (h : D3Shapes numbers positions c9 radii n B) {d : Damping}
    {f : ℝ → ℝ → ℝ} (hf : d.point env 9 true { alp := some (alp / 3) } = .ok f) (hb : InB B b)
    (hfew : (Finset.univ.filter fun i : Fin n => numbers.get (i.1 :: b) ≠ 0).card < 3) {i : ℕ}
    (hi : i < n) :
    (atmDispersion env numbers positions c9 radii cut d s9 alp).get (i :: b) = 0 := by
  obtain ⟨-, ge⟩ := atmDispersion_eval h.num h.pos h.radii h.c9 hf cut s9
  rw [ge b i hb hi]
  rw [Finset.sum_eq_zero, zero_div]
  intro j hj
  refine Finset.sum_eq_zero fun k hk => ?_
  refine if_neg fun hc => ?_
  obtain ⟨⟨h1, h2, h3, h4, h5, h6⟩, -⟩ := hc
  rw [Finset.mem_range] at hj hk
  have : ({⟨i, hi⟩, ⟨j, hj⟩, ⟨k, hk⟩} : Finset (Fin n)) ⊆
      Finset.univ.filter fun i : Fin n => numbers.get (i.1 :: b) ≠ 0 := by
    intro x hx
    simp only [Finset.mem_insert, Finset.mem_singleton] at hx
    rw [Finset.mem_filter]
    rcases hx with rfl | rfl | rfl
    · exact ⟨Finset.mem_univ _, h1⟩
    · exact ⟨Finset.mem_univ _, h2⟩
    · exact ⟨Finset.mem_univ _, h3⟩
  have hc := Finset.card_le_card this
  rw [Finset.card_eq_three.2 ⟨_, _, _, by simpa using h4, by simpa using h5, by simpa using h6, rfl⟩]
    at hc
  omega

end

theorem Demo.tri_sym : Sym3 (full [3, 3, 3] 2) (full [3, 3] 1) 3 [] :=
  ⟨fun _ _ _ => rfl, fun _ _ _ => rfl, fun _ _ => rfl⟩

example := C12_atom (s9 := 1) (alp := 16) Demo.tri_shapes Demo.tri_sym (by norm_num) InB_nil
  Demo.tri_separated (fun i j _ _ => Demo.tri_close i j) 2
example := C12_total (s9 := 1) (alp := 16) Demo.tri_shapes Demo.tri_sym (by norm_num) InB_nil
  Demo.tri_separated (fun i j _ _ => Demo.tri_close i j)
example := C10_total_partial (s9 := 1) (alp := 16) (cut := 4) Demo.tri_shapes Demo.tri_sym
  (by norm_num) InB_nil Demo.tri_separated

/-- A dimer. -/
example : (atmDispersion Demo.env Demo.dimer Demo.far (full [2, 2, 2] 2) (full [2, 2] 1) 40 .zero 1
    16).get [1] = 0 :=
  C12_few_atoms (n := 2) (B := []) ⟨⟨rfl, rfl⟩, ⟨rfl, rfl⟩, ⟨rfl, rfl⟩, ⟨rfl, rfl⟩⟩ (point9_zero _)
    InB_nil (by decide) (by norm_num)

end TadDftd4
