import Verif.Props.C36
import Verif.Props.C45

/-!
# C81: what the real-space cutoffs neglect

`Cutoff.disp2` and `Cutoff.disp3` (cutoff.py:36-, applied in dispersion/twobody.py and
dispersion/threebody.py) leave out pairs and triples. The energies with a smaller and a larger cutoff
differ exactly by the terms in between, and the difference is bounded by the undamped London and
Axilrod-Teller-Muto terms of the neglected pairs and triples (C52 has a bound for all systems at once).
-/

open scoped Classical

namespace TadDftd4

section

variable {env : Env} {T : Tables} {R : RefCfg} {P : Spec.D4Par}

/-- Two sums with conditions differ by the terms fulfilling only one. -/
private theorem sum_ite_sub {α : Type*} [Fintype α] {A A' D : α → Prop} [DecidablePred A]
    [DecidablePred A'] [DecidablePred D] {f g : α → ℝ} (hfg : ∀ a, g a = f a)
    (hA : ∀ a, A a → A' a) (hD : ∀ a, D a ↔ A' a ∧ ¬ A a) :
    (∑ a, if A' a then g a else 0) - (∑ a, if A a then f a else 0) =
      ∑ a, if D a then f a else 0 := by
  rw [← Finset.sum_sub_distrib]
  refine Finset.sum_congr rfl fun a _ => ?_
  by_cases h : A a
  · rw [if_pos h, if_pos (hA a h), if_neg fun hd => ((hD a).1 hd).2 h, hfg, sub_self]
  · by_cases h' : A' a
    · rw [if_neg h, if_pos h', if_pos ((hD a).2 ⟨h', h⟩), hfg, sub_zero]
    · rw [if_neg h, if_neg h', if_neg fun hd => h' ((hD a).1 hd).1, sub_zero]

/-- A call with other cutoffs for the dispersion terms. -/
theorem Call.setDispCutoff {ext : Ext} {n : ℕ} {B : Shape} {numbers : Tensor ℕ}
    {positions charge : Tensor ℝ} {p : Param} {o : DftOpts} {cn : Spec.CN} {eeq : Spec.EEQ}
    {c c' : Cutoff}
    (h : Call env T ext numbers positions charge p { o with opts := { o.opts with cutoff := some c } }
      n B R cn eeq P) (hle3 : c.disp3 ≤ c'.disp3) :
    Call env T ext numbers positions charge p
      { o with opts := { o.opts with cutoff := some c' } } n B R cn eeq P :=
  ⟨h.keys, ⟨h.args.num, h.args.pos, h.args.lt, h.args.fits, h.args.charge, h.args.q, h.args.rcov,
    h.args.r4r2, h.args.rvdw⟩, h.model, h.cn, h.eeq, h.damping, h.par, h.cut3.trans hle3⟩

variable {ext : Ext} {n : ℕ} {B : Shape} {numbers : Tensor ℕ}
    {positions charge : Tensor ℝ} {p : Param} {o : DftOpts} {cn : Spec.CN} {eeq : Spec.EEQ}
    {c c' : Cutoff}

/-- **C81**: the energies with two cutoffs differ by exactly the pair terms with a distance between
the two-body cutoffs, and by the triple terms which only the larger three-body cutoff admits. -/
theorem C81_exact
    (h : Call env T ext numbers positions charge p { o with opts := { o.opts with cutoff := some c } }
      n B R cn eeq P)
    (hle2 : c.disp2 ≤ c'.disp2) (hle3 : c.disp3 ≤ c'.disp3) (heq : c.cnEeq = c'.cnEeq) :
    ∃ e e', dftd4 env T ext numbers positions charge p
        { o with opts := { o.opts with cutoff := some c } } = .ok e ∧
      dftd4 env T ext numbers positions charge p
        { o with opts := { o.opts with cutoff := some c' } } = .ok e' ∧
      ∀ b, InB B b →
        let S := d4Computed env T R P c
        let M := system T cn eeq numbers positions charge { o.opts with cutoff := some c } n b
        let r := M.r env.eps
        ∀ i : Fin n, e'.get (i.1 :: b) - e.get (i.1 :: b) =
          -(1 / 2) * (∑ j, if M.Z i ≠ 0 ∧ M.Z j ≠ 0 ∧ i ≠ j ∧ c.disp2 < r i j ∧ r i j ≤ c'.disp2 then
            Spec.pairTerm S M M.atom i j else 0) +
          1 / 6 * (∑ j, ∑ k, if M.Z i ≠ 0 ∧ M.Z j ≠ 0 ∧ M.Z k ≠ 0 ∧ i ≠ j ∧ i ≠ k ∧ j ≠ k ∧
              (r i j ≤ c'.disp3 ∧ r j k ≤ c'.disp3) ∧ (c.disp3 < r i j ∨ c.disp3 < r j k) then
            Spec.tripleTerm S M (Spec.c9 S M.neutral) (Spec.R0 S M) i j k else 0) := by
  obtain ⟨e, hee, -, hg⟩ := h.eval
  obtain ⟨e', hee', -, hg'⟩ := (h.setDispCutoff hle3).eval
  refine ⟨e, e', hee, hee', fun b hb => ?_⟩
  intro S M r i
  have hsys : system T cn eeq numbers positions charge { o.opts with cutoff := some c' } n b = M := by
    show _ = system T cn eeq numbers positions charge { o.opts with cutoff := some c } n b
    unfold system
    simp only [Option.getD_some, heq]
  rw [hg b hb i, hg' b hb i]
  simp only [Option.getD_some]
  rw [hsys]
  show Spec.energy _ M i - Spec.energy _ M i = _
  unfold Spec.energy
  rw [add_sub_add_comm]
  congr 1
  · unfold Spec.e2
    rw [← mul_sub]
    refine congrArg _ (sum_ite_sub (fun j => ?_) (fun j hj => ?_) fun j => ?_)
    · rfl
    · exact ⟨hj.1, hj.2.1, hj.2.2.1, hj.2.2.2.trans hle2⟩
    · show _ ↔ (M.Z i ≠ 0 ∧ M.Z j ≠ 0 ∧ i ≠ j ∧ r i j ≤ c'.disp2) ∧
        ¬ (M.Z i ≠ 0 ∧ M.Z j ≠ 0 ∧ i ≠ j ∧ r i j ≤ c.disp2)
      rw [← not_le]
      tauto
  · unfold Spec.e3
    rw [← mul_sub, ← Finset.sum_sub_distrib]
    refine congrArg _ (Finset.sum_congr rfl fun j _ => ?_)
    refine sum_ite_sub (fun k => ?_) (fun k hk => ?_) fun k => ?_
    · rfl
    · exact ⟨hk.1, hk.2.1, hk.2.2.1, hk.2.2.2.1, hk.2.2.2.2.1, hk.2.2.2.2.2.1,
        hk.2.2.2.2.2.2.1.trans hle3, hk.2.2.2.2.2.2.2.trans hle3⟩
    · show _ ↔ (M.Z i ≠ 0 ∧ M.Z j ≠ 0 ∧ M.Z k ≠ 0 ∧ i ≠ j ∧ i ≠ k ∧ j ≠ k ∧ r i j ≤ c'.disp3 ∧
        r j k ≤ c'.disp3) ∧ ¬ (M.Z i ≠ 0 ∧ M.Z j ≠ 0 ∧ M.Z k ≠ 0 ∧ i ≠ j ∧ i ≠ k ∧ j ≠ k ∧
        r i j ≤ c.disp3 ∧ r j k ≤ c.disp3)
      rw [← not_le, ← not_le]
      tauto

/-- The pair term is at most the undamped one. -/
private theorem pair_le (ha1 : 0 ≤ P.a1) (ha2 : 0 ≤ P.a2) (M : Spec.Mol n) (j k : Fin n) :
    let C6 := c6At env T R (M.atom j) (M.atom k)
    let q := |3 * M.Q j * M.Q k|
    let r := M.r env.eps j k
    |Spec.pairTerm (d4Computed env T R P c) M M.atom j k| ≤
      C6 * (|P.s6| / r ^ 6 + |P.s8| * q / r ^ 8 + |P.s10| * (49 / 40 * q ^ 2) / r ^ 10) := by
  intro C6 q r
  have hr : 0 < r := Spec.r_pos env.eps_pos j k
  have hC : 0 ≤ C6 := c6At_nonneg _ _
  have hf : ∀ m : ℕ, |1 / (r ^ m + (P.a1 * √(3 * M.Q j * M.Q k) + P.a2) ^ m)| ≤ 1 / r ^ m := by
    intro m
    have hb : 0 ≤ P.a1 * √(3 * M.Q j * M.Q k) + P.a2 := by positivity
    rw [abs_of_nonneg (by positivity)]
    exact one_div_le_one_div_of_le (by positivity) (le_add_of_nonneg_right (by positivity))
  have e : Spec.pairTerm (d4Computed env T R P c) M M.atom j k =
      P.s6 * (C6 * (1 / (r ^ 6 + (P.a1 * √(3 * M.Q j * M.Q k) + P.a2) ^ 6))) +
      P.s8 * (C6 * (3 * M.Q j * M.Q k) *
        (1 / (r ^ 8 + (P.a1 * √(3 * M.Q j * M.Q k) + P.a2) ^ 8))) +
      P.s10 * (C6 * (3 * M.Q j * M.Q k) ^ 2 * 49 / 40 *
        (1 / (r ^ 10 + (P.a1 * √(3 * M.Q j * M.Q k) + P.a2) ^ 10))) := rfl
  rw [e]
  have t : C6 * (|P.s6| / r ^ 6 + |P.s8| * q / r ^ 8 + |P.s10| * (49 / 40 * q ^ 2) / r ^ 10) =
      |P.s6| * (C6 * (1 / r ^ 6)) + |P.s8| * (C6 * q * (1 / r ^ 8)) +
        |P.s10| * (C6 * q ^ 2 * 49 / 40 * (1 / r ^ 10)) := by ring
  rw [t]
  refine (abs_add_le _ _).trans (add_le_add ((abs_add_le _ _).trans (add_le_add ?_ ?_)) ?_)
  · rw [abs_mul, abs_mul, abs_of_nonneg hC]
    exact mul_le_mul_of_nonneg_left (mul_le_mul_of_nonneg_left (hf 6) hC) (abs_nonneg _)
  · rw [abs_mul, abs_mul, abs_mul C6, abs_of_nonneg hC]
    exact mul_le_mul_of_nonneg_left (mul_le_mul_of_nonneg_left (hf 8) (mul_nonneg hC (abs_nonneg _)))
      (abs_nonneg _)
  · rw [abs_mul, abs_mul, abs_div, abs_mul, abs_mul C6, abs_of_nonneg hC, abs_pow,
      abs_of_pos (by norm_num : (0 : ℝ) < 49), abs_of_pos (by norm_num : (0 : ℝ) < 40)]
    exact mul_le_mul_of_nonneg_left (mul_le_mul_of_nonneg_left (hf 10) (by positivity))
      (abs_nonneg _)

/-- The triple term is at most four times the undamped isotropic one. -/
theorem d4_triple_le (ha1 : 0 ≤ P.a1) (ha2 : 0 ≤ P.a2) (M : Spec.Mol n) (j k l : Fin n) :
    let C9 := Spec.c9 (d4Computed env T R P c) M.neutral j k l
    let r := M.r env.eps
    |Spec.tripleTerm (d4Computed env T R P c) M (Spec.c9 (d4Computed env T R P c) M.neutral)
      (Spec.R0 (d4Computed env T R P c) M) j k l| ≤
      4 * |P.s9| * C9 / (r j k * r j l * r k l) ^ 3 := by
  intro C9 r
  set x := r j k with hxd
  set y := r j l with hyd
  set z := r k l with hzd
  have px : 0 < x := Spec.r_pos env.eps_pos _ _
  have py : 0 < y := Spec.r_pos env.eps_pos _ _
  have pz : 0 < z := Spec.r_pos env.eps_pos _ _
  have t1 : y ≤ x + z := Spec.r_triangle env.eps_pos j k l
  have t2 : x ≤ y + z := by
    have := Spec.r_triangle (M := M) env.eps_pos j l k
    rwa [Spec.r_symm l k] at this
  have t3 : z ≤ x + y := by
    have := Spec.r_triangle (M := M) env.eps_pos k j l
    rwa [Spec.r_symm k j] at this
  set S := d4Computed env T R P c with hS
  have hR0 : ∀ a b, 0 ≤ Spec.R0 S M a b := fun a b =>
    add_nonneg (mul_nonneg ha1 (Real.sqrt_nonneg _)) ha2
  set RR := Spec.R0 S M j k * Spec.R0 S M j l * Spec.R0 S M k l with hRR
  have hRR' : 0 ≤ RR := mul_nonneg (mul_nonneg (hR0 _ _) (hR0 _ _)) (hR0 _ _)
  have e : Spec.tripleTerm S M (Spec.c9 S M.neutral) (Spec.R0 S M) j k l =
      P.s9 * C9 * (1 / (1 + 6 * (RR / (x * y * z)) ^ (P.alp / 3))) *
        ((3 * Spec.cosSides x y z * Spec.cosSides x z y * Spec.cosSides y z x + 1) /
          (x * y * z) ^ 3) := rfl
  have hang : |3 * Spec.cosSides x y z * Spec.cosSides x z y * Spec.cosSides y z x + 1| ≤ 4 := by
    have c1 := Spec.cosSides_abs px py t3 t2 t1
    have c2 := Spec.cosSides_abs px pz t1 (by linarith) t3
    have c3 := Spec.cosSides_abs py pz t2 (by linarith) (by linarith)
    refine (abs_add_le _ _).trans ?_
    rw [abs_mul, abs_mul, abs_mul, abs_of_pos (by norm_num : (0 : ℝ) < 3), abs_one]
    have c12 := mul_le_one₀ c1 (abs_nonneg _) c2
    have c123 := mul_le_one₀ c12 (abs_nonneg _) c3
    linarith
  have hC9 : 0 ≤ C9 := Real.sqrt_nonneg _
  have hd : |1 / (1 + 6 * (RR / (x * y * z)) ^ (P.alp / 3))| ≤ 1 := by
    have : 0 ≤ (RR / (x * y * z)) ^ (P.alp / 3) := Real.rpow_nonneg (by positivity) _
    rw [abs_of_nonneg (by positivity)]
    exact div_le_one_of_le₀ (by linarith) (by positivity)
  rw [e, abs_mul, abs_mul, abs_mul, abs_div _ ((x * y * z) ^ 3), abs_of_nonneg hC9,
    abs_of_pos (show (0 : ℝ) < (x * y * z) ^ 3 by positivity)]
  calc |P.s9| * C9 * |1 / (1 + 6 * (RR / (x * y * z)) ^ (P.alp / 3))| *
        (|3 * Spec.cosSides x y z * Spec.cosSides x z y * Spec.cosSides y z x + 1| /
          (x * y * z) ^ 3)
      ≤ |P.s9| * C9 * 1 * (4 / (x * y * z) ^ 3) := by
        refine mul_le_mul (mul_le_mul_of_nonneg_left hd (by positivity))
          (div_le_div_of_nonneg_right hang (by positivity)) (by positivity) (by positivity)
    _ = 4 * |P.s9| * C9 / (x * y * z) ^ 3 := by ring

private theorem abs_ite_le {A D : Prop} [Decidable A] [Decidable D] {v K : ℝ}
    (h : A → D ∧ |v| ≤ K) (h0 : D → 0 ≤ K) :
    |if A then v else 0| ≤ if D then K else 0 := by
  by_cases hA : A
  · rw [if_pos hA, if_pos (h hA).1]
    exact (h hA).2
  · rw [if_neg hA, abs_zero]
    split_ifs with hD
    · exact h0 hD
    · exact le_rfl

/-- **C81**: for atoms farther apart than `√ε`, what a cutoff neglects is at most the undamped
London terms of the neglected pairs and four times the undamped triple-dipole terms of the neglected
triples. All distances are the plain ones. -/
theorem C81_neglected
    (h : Call env T ext numbers positions charge p { o with opts := { o.opts with cutoff := some c } }
      n B R cn eeq P)
    (hle2 : c.disp2 ≤ c'.disp2) (hle3 : c.disp3 ≤ c'.disp3) (heq : c.cnEeq = c'.cnEeq)
    (ha1 : 0 ≤ P.a1) (ha2 : 0 ≤ P.a2) :
    ∃ e e', dftd4 env T ext numbers positions charge p
        { o with opts := { o.opts with cutoff := some c } } = .ok e ∧
      dftd4 env T ext numbers positions charge p
        { o with opts := { o.opts with cutoff := some c' } } = .ok e' ∧
      ∀ b, InB B b →
        let M := system T cn eeq numbers positions charge { o.opts with cutoff := some c } n b
        let d := fun i j => dist (M.pos i) (M.pos j)
        let C6 := fun i j => c6At env T R (M.atom i) (M.atom j)
        let C6' := fun i j => c6At env T R (M.neutral i) (M.neutral j)
        let q := fun i j => |3 * M.Q i * M.Q j|
        (∀ i j, i ≠ j → M.Z i ≠ 0 → M.Z j ≠ 0 → √env.eps ≤ d i j) →
        ∀ i : Fin n, |e'.get (i.1 :: b) - e.get (i.1 :: b)| ≤
          1 / 2 * (∑ j, if M.Z i ≠ 0 ∧ M.Z j ≠ 0 ∧ i ≠ j ∧ c.disp2 < d i j ∧ d i j ≤ c'.disp2 then
            C6 i j * (|P.s6| / d i j ^ 6 + |P.s8| * q i j / d i j ^ 8 +
              |P.s10| * (49 / 40 * q i j ^ 2) / d i j ^ 10) else 0) +
          1 / 6 * (∑ j, ∑ k, if M.Z i ≠ 0 ∧ M.Z j ≠ 0 ∧ M.Z k ≠ 0 ∧ i ≠ j ∧ i ≠ k ∧ j ≠ k ∧
              (d i j ≤ c'.disp3 ∧ d j k ≤ c'.disp3) ∧ (c.disp3 < d i j ∨ c.disp3 < d j k) then
            4 * |P.s9| * √(max (C6' i j * C6' i k * C6' j k) env.eps) /
              (d i j * d i k * d j k) ^ 3 else 0) := by
  obtain ⟨e, e', h1, h2, hx⟩ := C81_exact h hle2 hle3 heq
  refine ⟨e, e', h1, h2, fun b hb => ?_⟩
  intro M d C6 C6' q hsep i
  have hr : ∀ i j, i ≠ j → M.Z i ≠ 0 → M.Z j ≠ 0 → M.r env.eps i j = d i j := fun i j hij hi hj => by
    rw [Spec.r_eq_max env.eps_pos]
    exact max_eq_left (hsep i j hij hi hj)
  rw [hx b hb i]
  refine (abs_add_le _ _).trans (add_le_add ?_ ?_)
  · rw [abs_mul, show |(-(1 / 2) : ℝ)| = 1 / 2 by norm_num]
    refine mul_le_mul_of_nonneg_left ((Finset.abs_sum_le_sum_abs _ _).trans
      (Finset.sum_le_sum fun j _ => ?_)) (by norm_num)
    refine abs_ite_le (fun hc => ?_) (fun _ => ?_)
    · obtain ⟨zi, zj, hij, h1, h2⟩ := hc
      have hp := pair_le (env := env) (T := T) (R := R) (c := c) ha1 ha2 M i j
      have hrr := hr i j hij zi zj
      simp only [hrr] at hp
      exact ⟨⟨zi, zj, hij, hrr ▸ h1, hrr ▸ h2⟩, hp⟩
    · have : 0 ≤ C6 i j := c6At_nonneg _ _
      have : 0 ≤ d i j := dist_nonneg
      have : 0 ≤ q i j := abs_nonneg _
      positivity
  · rw [abs_mul, show |(1 / 6 : ℝ)| = 1 / 6 by norm_num]
    refine mul_le_mul_of_nonneg_left ((Finset.abs_sum_le_sum_abs _ _).trans
      (Finset.sum_le_sum fun j _ => (Finset.abs_sum_le_sum_abs _ _).trans
        (Finset.sum_le_sum fun k _ => ?_))) (by norm_num)
    refine abs_ite_le (fun hc => ?_) (fun _ => ?_)
    · obtain ⟨zi, zj, zk, hij, hik, hjk, ⟨h1, h2⟩, h3⟩ := hc
      have hp := d4_triple_le (env := env) (T := T) (R := R) (c := c) ha1 ha2 M i j k
      have e9 : Spec.c9 (d4Computed env T R P c) M.neutral i j k =
          √(max (C6' i j * C6' i k * C6' j k) env.eps) := by
        show √(max |C6' i j * C6' i k * C6' j k| env.eps) = _
        rw [abs_of_nonneg (mul_nonneg (mul_nonneg (c6At_nonneg _ _) (c6At_nonneg _ _))
          (c6At_nonneg _ _))]
      have r1 := hr i j hij zi zj
      have r2 := hr i k hik zi zk
      have r3 := hr j k hjk zj zk
      simp only [e9, r1, r2, r3] at hp
      exact ⟨⟨zi, zj, zk, hij, hik, hjk, ⟨r1 ▸ h1, r3 ▸ h2⟩, by rw [← r1, ← r3]; exact h3⟩, hp⟩
    · have : 0 ≤ d i j := dist_nonneg
      have : 0 ≤ d i k := dist_nonneg
      have : 0 ≤ d j k := dist_nonneg
      positivity

end

/-- Two hydrogen atoms at 65 Bohr with the default cutoffs and with 70 Bohr. -/
example := C81_exact (o := {}) (c := {}) (c' := { disp2 := 70, disp3 := 70 }) (Demo.h2_call 65)
  (by norm_num [Defaults.disp2Cutoff]) (by norm_num [Defaults.disp3Cutoff]) rfl

example := C81_neglected (o := {}) (c := {}) (c' := { disp2 := 70, disp3 := 70 }) (Demo.h2_call 65)
  (by norm_num [Defaults.disp2Cutoff]) (by norm_num [Defaults.disp3Cutoff]) rfl
  (by norm_num [Demo.par]) (by norm_num [Demo.par])

/-- They are farther apart than `√ε`. -/
example (i j : Fin 2) (hij : i ≠ j) :
    √Demo.env.eps ≤ dist (coords (Demo.h2 65) 2 [] i) (coords (Demo.h2 65) 2 [] j) := by
  have heps : √Demo.env.eps ≤ 1 := by
    rw [Real.sqrt_le_one]
    show (1 : ℝ) / 2 ^ 52 ≤ 1
    norm_num
  have hd := Demo.h2_dist (x := 65) (by norm_num)
  refine heps.trans ((by norm_num : (1 : ℝ) ≤ 65).trans ?_)
  fin_cases i <;> fin_cases j
  · exact absurd rfl hij
  · exact hd.ge
  · rw [dist_comm]; exact hd.ge
  · exact absurd rfl hij

end TadDftd4
