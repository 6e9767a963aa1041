import Verif.Lemmas.Bounds
import Verif.Lemmas.Packing
import Verif.Props.C81

/-!
# C86: energies per atom and errors of cutoffs do not grow with the system

If atoms keep a distance `δ`, the energy of every atom is bounded and so is the error of cutoffs, whatever the
number of atoms: the energy is at most proportional to the number of atoms, and with increasing cutoffs the
energy of every atom converges at a rate that does not depend on the system.
-/

set_option linter.unusedSimpArgs false

open scoped Classical

namespace TadDftd4

open Tensor

/-- Real atoms are at least `δ` apart. -/
def Spec.Spaced {n : ℕ} (δ : ℝ) (Z : Fin n → ℕ) (x : Fin n → Spec.E3) : Prop :=
  ∀ i j, i ≠ j → Z i ≠ 0 → Z j ≠ 0 → δ ≤ dist (x i) (x j)

section
variable {env : Env} {T : Tables} {R : RefCfg} {P : Spec.D4Par} {δ : ℝ}

/-- `C86_cutoff` for atoms that are at least `√ε` apart. -/
private theorem core (hT : T.Physical R.rq) (hga : 0 ≤ R.ga) (hgc : 0 < R.gc) (ha1 : 0 ≤ P.a1) (ha2 : 0 ≤ P.a2)
    (hδ0 : 0 < δ) :
    ∃ K₂ K₃ : ℝ, ∀ (ext : Ext) (n : ℕ) (B : Shape) (numbers : Tensor ℕ)
      (positions charge : Tensor ℝ) (p : Param) (o : DftOpts) (cn : Spec.CN) (eeq : Spec.EEQ) (c c' : Cutoff),
      Call env T ext numbers positions charge p { o with opts := { o.opts with cutoff := some c } }
        n B R cn eeq P → o.opts.r4r2 = none →
      c.disp2 ≤ c'.disp2 → c.disp3 ≤ c'.disp3 → c.cnEeq = c'.cnEeq → 2 * δ ≤ c.disp2 → 2 * δ ≤ c.disp3 →
      ∃ e e', dftd4 env T ext numbers positions charge p
          { o with opts := { o.opts with cutoff := some c } } = .ok e ∧
        dftd4 env T ext numbers positions charge p
          { o with opts := { o.opts with cutoff := some c' } } = .ok e' ∧
        ∀ b, InB B b → Spec.Spaced δ (elements numbers n b) (coords positions n b) →
          Spec.Spaced (√env.eps) (elements numbers n b) (coords positions n b) →
          ∀ i < n, |e'.get (i :: b) - e.get (i :: b)| ≤ K₂ / c.disp2 ^ 3 + K₃ / c.disp3 ^ 2 := by
  have hC : 0 ≤ c6Max env T R := mul_nonneg thopi_pos.le (Finset.sum_nonneg fun w _ =>
    mul_nonneg (trapzWeights_nonneg w) (mul_self_nonneg _))
  set C := c6Max env T R with hCdef
  set Q := ∑ Z ∈ Finset.range T.nZ, |T.r4r2 Z| with hQdef
  have hQ0 : 0 ≤ Q := Finset.sum_nonneg fun _ _ => abs_nonneg _
  have hQ : ∀ Z < T.nZ, |T.r4r2 Z| ≤ Q := fun Z hZ =>
    Finset.single_le_sum (f := fun Z => |T.r4r2 Z|) (fun _ _ => abs_nonneg _)
      (Finset.mem_range.2 hZ)
  set A := C * (|P.s6| + |P.s8| * (3 * Q * Q) / δ ^ 2 + |P.s10| * (49 / 40 * (3 * Q * Q) ^ 2) / δ ^ 4) with hA
  set A3 := 4 * |P.s9| * √(max (C * C * C) env.eps) with hA3
  have hA0 : 0 ≤ A := by positivity
  have hA30 : 0 ≤ A3 := by positivity
  refine ⟨1 / 2 * (A * (5488 / δ ^ 3)), 1 / 6 * (A3 * (6 * (5488 / δ ^ 4 * (5488 * 4 / δ ^ 3)))),
    fun ext n B numbers positions charge p o cn eeq c c' h hr4 hle2 hle3 heq h2 h3 => ?_⟩
  obtain ⟨e, e', he, he', hx⟩ := C81_neglected h hle2 hle3 heq ha1 ha2
  refine ⟨e, e', he, he', fun b hb hsp hse i hi => ?_⟩
  set M := system T cn eeq numbers positions charge { o.opts with cutoff := some c } n b with hM
  have hZ : ∀ j, M.Z j < T.nZ := fun j => h.args.Z_lt hb j
  have hMQ : ∀ j, |M.Q j| ≤ Q := by
    intro j
    have : M.Q j = T.r4r2 (elements numbers n b j) := by
      show (match o.opts.r4r2 with
        | some x => x.get (j.1 :: b)
        | none => T.r4r2 (elements numbers n b j)) = _
      rw [hr4]
    rw [this]
    exact hQ _ (hZ j)
  have hq : ∀ j k, |3 * M.Q j * M.Q k| ≤ 3 * Q * Q := by
    intro j k
    rw [abs_mul, abs_mul, abs_of_pos (by norm_num : (0 : ℝ) < 3)]
    exact mul_le_mul (mul_le_mul_of_nonneg_left (hMQ j) (by norm_num)) (hMQ k) (abs_nonneg _)
      (by positivity)
  have hc6 : ∀ a a' : Spec.AtomData, a.Z < T.nZ → a'.Z < T.nZ → c6At env T R a a' ≤ C :=
    fun a a' hA hA' => c6At_le hT hga hgc a a' hA hA'
  have hsp' : ∀ i j, i ≠ j → M.Z i ≠ 0 → M.Z j ≠ 0 → δ ≤ dist (M.pos i) (M.pos j) := hsp
  have hbound := hx b hb hse ⟨i, hi⟩
  refine hbound.trans ?_
  set a : Fin n := ⟨i, hi⟩
  set s : Finset (Fin n) := Finset.univ.filter fun j => M.Z j ≠ 0 with hs
  have hss : ∀ i ∈ s, ∀ j ∈ s, i ≠ j → δ ≤ dist (M.pos i) (M.pos j) := fun i hi j hj hij =>
    hsp' i j hij (Finset.mem_filter.1 hi).2 (Finset.mem_filter.1 hj).2
  have hd2 : 0 < c.disp2 := by linarith
  have hd3 : 0 < c.disp3 := by linarith
  by_cases ha : M.Z a = 0
  · rw [Finset.sum_eq_zero fun j _ => if_neg fun h => h.1 ha, Finset.sum_eq_zero fun j _ =>
      Finset.sum_eq_zero fun k _ => if_neg fun h => h.1 ha]
    rw [mul_zero, mul_zero, add_zero]
    positivity
  have has : a ∈ s := Finset.mem_filter.2 ⟨Finset.mem_univ _, ha⟩
  refine add_le_add ?_ ?_
  · have h1 : ∀ j, (if M.Z a ≠ 0 ∧ M.Z j ≠ 0 ∧ a ≠ j ∧ c.disp2 < dist (M.pos a) (M.pos j) ∧
          dist (M.pos a) (M.pos j) ≤ c'.disp2 then
        c6At env T R (M.atom a) (M.atom j) * (|P.s6| / dist (M.pos a) (M.pos j) ^ 6 +
          |P.s8| * |3 * M.Q a * M.Q j| / dist (M.pos a) (M.pos j) ^ 8 +
          |P.s10| * (49 / 40 * |3 * M.Q a * M.Q j| ^ 2) / dist (M.pos a) (M.pos j) ^ 10) else 0) ≤
        if M.Z j ≠ 0 ∧ a ≠ j ∧ c.disp2 ≤ dist (M.pos j) (M.pos a) then
          A * (1 / dist (M.pos j) (M.pos a) ^ (4 + 2)) else 0 := by
      intro j
      by_cases hc : M.Z a ≠ 0 ∧ M.Z j ≠ 0 ∧ a ≠ j ∧ c.disp2 < dist (M.pos a) (M.pos j) ∧
          dist (M.pos a) (M.pos j) ≤ c'.disp2
      · rw [if_pos hc, if_pos ⟨hc.2.1, hc.2.2.1, by rw [dist_comm]; exact hc.2.2.2.1.le⟩, dist_comm (M.pos j)]
        set r := dist (M.pos a) (M.pos j) with hr
        have hrδ : δ ≤ r := hsp' a j hc.2.2.1 hc.1 hc.2.1
        have hr0 : 0 < r := hδ0.trans_le hrδ
        have eA : A * (1 / r ^ (4 + 2)) = C * ((|P.s6| + |P.s8| * (3 * Q * Q) / δ ^ 2 +
            |P.s10| * (49 / 40 * (3 * Q * Q) ^ 2) / δ ^ 4) * (1 / r ^ 6)) := by
          rw [hA]; ring
        rw [eA]
        refine mul_le_mul (hc6 _ _ (hZ a) (hZ j)) ?_ (by positivity) hC
        have e1 : |P.s8| * |3 * M.Q a * M.Q j| / r ^ 8 ≤ |P.s8| * (3 * Q * Q) / δ ^ 2 * (1 / r ^ 6) := by
          rw [div_mul_div_comm, mul_one]
          refine div_le_div₀ (by positivity) (mul_le_mul_of_nonneg_left (hq a j) (abs_nonneg _)) (by positivity) ?_
          calc δ ^ 2 * r ^ 6 ≤ r ^ 2 * r ^ 6 :=
                mul_le_mul_of_nonneg_right (pow_le_pow_left₀ hδ0.le hrδ 2) (by positivity)
            _ = r ^ 8 := by ring
        have e2 : |P.s10| * (49 / 40 * |3 * M.Q a * M.Q j| ^ 2) / r ^ 10 ≤
            |P.s10| * (49 / 40 * (3 * Q * Q) ^ 2) / δ ^ 4 * (1 / r ^ 6) := by
          rw [div_mul_div_comm, mul_one]
          refine div_le_div₀ (by positivity) (mul_le_mul_of_nonneg_left (mul_le_mul_of_nonneg_left
            (pow_le_pow_left₀ (abs_nonneg _) (hq a j) 2) (by norm_num)) (abs_nonneg _)) (by positivity) ?_
          calc δ ^ 4 * r ^ 6 ≤ r ^ 4 * r ^ 6 :=
                mul_le_mul_of_nonneg_right (pow_le_pow_left₀ hδ0.le hrδ 4) (by positivity)
            _ = r ^ 10 := by ring
        have e3 : |P.s6| / r ^ 6 = |P.s6| * (1 / r ^ 6) := by ring
        rw [e3]
        linarith
      · rw [if_neg hc]
        split_ifs
        · positivity
        · exact le_rfl
    have h2' := Packing.sum_pow_le (s := s.filter fun j => a ≠ j ∧ c.disp2 ≤ dist (M.pos j) (M.pos a)) (x := M.pos)
      (y := M.pos a) (R := c.disp2) hδ0 (by linarith)
      (fun i hi j hj => hss i (Finset.mem_filter.1 hi).1 j (Finset.mem_filter.1 hj).1)
      (fun j hj => (Finset.mem_filter.1 hj).2.2) 2
    rw [mul_div_assoc]
    refine mul_le_mul_of_nonneg_left ((Finset.sum_le_sum fun j _ => h1 j).trans ?_) (by norm_num)
    rw [← Finset.sum_filter, ← Finset.mul_sum]
    have e : Finset.univ.filter (fun j => M.Z j ≠ 0 ∧ a ≠ j ∧ c.disp2 ≤ dist (M.pos j) (M.pos a)) =
        s.filter fun j => a ≠ j ∧ c.disp2 ≤ dist (M.pos j) (M.pos a) := by
      rw [hs, Finset.filter_filter]
    rw [e]
    refine (mul_le_mul_of_nonneg_left h2' hA0).trans (le_of_eq ?_)
    have : c.disp2 ≠ 0 := hd2.ne'
    have : δ ≠ 0 := hδ0.ne'
    field_simp
  · have h1 : ∀ j k, (if M.Z a ≠ 0 ∧ M.Z j ≠ 0 ∧ M.Z k ≠ 0 ∧ a ≠ j ∧ a ≠ k ∧ j ≠ k ∧
          (dist (M.pos a) (M.pos j) ≤ c'.disp3 ∧ dist (M.pos j) (M.pos k) ≤ c'.disp3) ∧
          (c.disp3 < dist (M.pos a) (M.pos j) ∨ c.disp3 < dist (M.pos j) (M.pos k)) then
        4 * |P.s9| * √(max (c6At env T R (M.neutral a) (M.neutral j) * c6At env T R (M.neutral a) (M.neutral k) *
          c6At env T R (M.neutral j) (M.neutral k)) env.eps) /
          (dist (M.pos a) (M.pos j) * dist (M.pos a) (M.pos k) * dist (M.pos j) (M.pos k)) ^ 3 else 0) ≤
        if M.Z j ≠ 0 ∧ M.Z k ≠ 0 then A3 * (if a ≠ j ∧ a ≠ k ∧ j ≠ k ∧ (2 * (c.disp3 / 2) ≤ dist (M.pos a) (M.pos j) ∨
            2 * (c.disp3 / 2) ≤ dist (M.pos j) (M.pos k)) then
          1 / (dist (M.pos a) (M.pos j) * dist (M.pos a) (M.pos k) * dist (M.pos j) (M.pos k)) ^ 3 else 0) else 0 := by
      intro j k
      by_cases hc : M.Z a ≠ 0 ∧ M.Z j ≠ 0 ∧ M.Z k ≠ 0 ∧ a ≠ j ∧ a ≠ k ∧ j ≠ k ∧
          (dist (M.pos a) (M.pos j) ≤ c'.disp3 ∧ dist (M.pos j) (M.pos k) ≤ c'.disp3) ∧
          (c.disp3 < dist (M.pos a) (M.pos j) ∨ c.disp3 < dist (M.pos j) (M.pos k))
      · obtain ⟨za, zj, zk, h1, h2, h3, -, h4⟩ := id hc
        rw [if_pos hc, if_pos ⟨zj, zk⟩, if_pos ⟨h1, h2, h3, h4.imp (fun h => by linarith) fun h => by linarith⟩,
          div_eq_mul_one_div]
        refine mul_le_mul_of_nonneg_right ?_ (by positivity)
        refine mul_le_mul_of_nonneg_left (Real.sqrt_le_sqrt (max_le_max ?_ le_rfl)) (by positivity)
        have n := c6At_nonneg (env := env) (T := T) (R := R)
        exact mul_le_mul (mul_le_mul (hc6 _ _ (hZ a) (hZ j)) (hc6 _ _ (hZ a) (hZ k)) (n _ _) hC)
          (hc6 _ _ (hZ j) (hZ k)) (n _ _) (mul_nonneg hC hC)
      · rw [if_neg hc]
        split_ifs
        · positivity
        · simp
        · exact le_rfl
    have h2' := Packing.sum_triangles_le (s := s) (x := M.pos) (R := c.disp3 / 2) hδ0 (by linarith) hss has
    rw [mul_div_assoc]
    refine mul_le_mul_of_nonneg_left ((Finset.sum_le_sum fun j _ => Finset.sum_le_sum fun k _ => h1 j k).trans ?_)
      (by norm_num)
    have e : ∀ f : Fin n → Fin n → ℝ, ∑ j, ∑ k, (if M.Z j ≠ 0 ∧ M.Z k ≠ 0 then f j k else 0) =
        ∑ j ∈ s, ∑ k ∈ s, f j k := by
      intro f
      rw [hs, Finset.sum_filter]
      refine Finset.sum_congr rfl fun j _ => ?_
      by_cases hj : M.Z j ≠ 0
      · rw [if_pos hj, Finset.sum_filter]
        exact Finset.sum_congr rfl fun k _ => by simp [hj]
      · rw [if_neg hj]
        exact Finset.sum_eq_zero fun k _ => if_neg fun h => hj h.1
    rw [e]
    simp only [← Finset.mul_sum]
    refine (mul_le_mul_of_nonneg_left (le_of_eq_of_le (Finset.sum_congr rfl fun _ _ => Finset.sum_congr rfl
      fun _ _ => by split_ifs <;> rfl) h2') hA30).trans (le_of_eq ?_)
    have : c.disp3 ≠ 0 := hd3.ne'
    have : δ ≠ 0 := hδ0.ne'
    field_simp
    ring

/-- **C86**: what cutoffs of at least `2 δ` neglect of the energy of an atom decreases with the third power of the
two-body cutoff and with the second power of the three-body cutoff. The constants do not depend on the system. -/
theorem C86_cutoff (hT : T.Physical R.rq) (hga : 0 ≤ R.ga) (hgc : 0 < R.gc) (ha1 : 0 ≤ P.a1) (ha2 : 0 ≤ P.a2)
    (hδ : √env.eps ≤ δ) :
    ∃ K₂ K₃ : ℝ, ∀ (ext : Ext) (n : ℕ) (B : Shape) (numbers : Tensor ℕ)
      (positions charge : Tensor ℝ) (p : Param) (o : DftOpts) (cn : Spec.CN) (eeq : Spec.EEQ) (c c' : Cutoff),
      Call env T ext numbers positions charge p { o with opts := { o.opts with cutoff := some c } }
        n B R cn eeq P → o.opts.r4r2 = none →
      c.disp2 ≤ c'.disp2 → c.disp3 ≤ c'.disp3 → c.cnEeq = c'.cnEeq → 2 * δ ≤ c.disp2 → 2 * δ ≤ c.disp3 →
      ∃ e e', dftd4 env T ext numbers positions charge p
          { o with opts := { o.opts with cutoff := some c } } = .ok e ∧
        dftd4 env T ext numbers positions charge p
          { o with opts := { o.opts with cutoff := some c' } } = .ok e' ∧
        ∀ b, InB B b → Spec.Spaced δ (elements numbers n b) (coords positions n b) →
          ∀ i < n, |e'.get (i :: b) - e.get (i :: b)| ≤ K₂ / c.disp2 ^ 3 + K₃ / c.disp3 ^ 2 := by
  obtain ⟨K₂, K₃, hK⟩ := core (env := env) hT hga hgc ha1 ha2 ((Real.sqrt_pos.2 env.eps_pos).trans_le hδ)
  refine ⟨K₂, K₃, fun ext n B numbers positions charge p o cn eeq c c' h hr4 hle2 hle3 heq h2 h3 => ?_⟩
  obtain ⟨e, e', he, he', hx⟩ := hK ext n B numbers positions charge p o cn eeq c c' h hr4 hle2 hle3 heq h2 h3
  exact ⟨e, e', he, he', fun b hb hsp => hx b hb hsp fun i j hij hi hj => hδ.trans (hsp i j hij hi hj)⟩

/-- **C86**: energies per atom are bounded, whatever the system, its size and the cutoffs. -/
theorem C86_energy (hT : T.Physical R.rq) (hga : 0 ≤ R.ga) (hgc : 0 < R.gc) (ha1 : 0 ≤ P.a1) (ha2 : 0 ≤ P.a2)
    (hδ : √env.eps ≤ δ) :
    ∃ K : ℝ, ∀ (ext : Ext) (n : ℕ) (B : Shape) (numbers : Tensor ℕ)
      (positions charge : Tensor ℝ) (p : Param) (o : DftOpts) (cn : Spec.CN) (eeq : Spec.EEQ),
      Call env T ext numbers positions charge p o n B R cn eeq P → o.opts.r4r2 = none →
      ∃ e, dftd4 env T ext numbers positions charge p o = .ok e ∧
        ∀ b, InB B b → Spec.Spaced δ (elements numbers n b) (coords positions n b) →
          ∀ i < n, |e.get (i :: b)| ≤ K := by
  have hδ0 : 0 < δ := (Real.sqrt_pos.2 env.eps_pos).trans_le hδ
  obtain ⟨K₂, K₃, hK⟩ := core (env := env) hT hga hgc ha1 ha2 (show 0 < δ / 4 by positivity)
  refine ⟨K₂ / (δ / 2) ^ 3 + K₃ / (δ / 2) ^ 2, fun ext n B numbers positions charge p o cn eeq h hr4 => ?_⟩
  set c := o.opts.cutoff.getD {} with hc
  set c0 : Cutoff := { disp2 := δ / 2, disp3 := δ / 2, cnEeq := c.cnEeq } with hc0
  set c1 : Cutoff := { disp2 := max c.disp2 (δ / 2), disp3 := max c.disp3 (δ / 2), cnEeq := c.cnEeq } with hc1
  have hcall : ∀ c' : Cutoff, 0 ≤ c'.disp3 → Call env T ext numbers positions charge p
      { o with opts := { o.opts with cutoff := some c' } } n B R cn eeq P := fun c' h0 =>
    ⟨h.keys, ⟨h.args.num, h.args.pos, h.args.lt, h.args.fits, h.args.charge, h.args.q, h.args.rcov,
      h.args.r4r2, h.args.rvdw⟩, h.model, h.cn, h.eeq, h.damping, h.par, h0⟩
  obtain ⟨e0, e1, he0, he1, hx⟩ := hK ext n B numbers positions charge p o cn eeq c0 c1
    (hcall c0 (by positivity)) hr4 (le_max_right _ _) (le_max_right _ _) rfl (by show 2 * (δ / 4) ≤ δ / 2; linarith)
    (by show 2 * (δ / 4) ≤ δ / 2; linarith)
  obtain ⟨e, he, -, hg⟩ := h.eval
  obtain ⟨e0', he0', -, hg0⟩ := (hcall c0 (by positivity)).eval
  obtain ⟨e1', he1', -, hg1⟩ := (hcall c1 (le_max_of_le_right (by positivity))).eval
  rw [he0] at he0'
  rw [he1] at he1'
  cases he0'
  cases he1'
  refine ⟨e, he, fun b hb hsp i hi => ?_⟩
  have hb' := hx b hb (fun i j hij hi hj => by linarith [hsp i j hij hi hj])
    (fun i j hij hi hj => hδ.trans (hsp i j hij hi hj)) i hi
  set M := system T cn eeq numbers positions charge o.opts n b with hM
  have hsys : ∀ c' : Cutoff, c'.cnEeq = c.cnEeq →
      system T cn eeq numbers positions charge { o.opts with cutoff := some c' } n b = M := by
    intro c' h'
    rw [hM]
    unfold system
    simp only [Option.getD_some, h', ← hc]
  have hr : ∀ j k, j ≠ k → M.Z j ≠ 0 → M.Z k ≠ 0 → δ ≤ M.r env.eps j k := fun j k hjk hj hk => by
    rw [Spec.r_eq_max env.eps_pos]
    exact le_max_of_le_left (hsp j k hjk hj hk)
  have z0 : e0.get (i :: b) = 0 := by
    rw [hg0 b hb ⟨i, hi⟩]
    simp only [Option.getD_some]
    rw [hsys c0 rfl]
    unfold Spec.energy Spec.e2 Spec.e3
    rw [Finset.sum_eq_zero fun j _ => if_neg fun h => ?_, Finset.sum_eq_zero fun j _ => Finset.sum_eq_zero fun k _ =>
      if_neg fun h => ?_]
    · simp
    · have h1 := hr _ j h.2.2.2.1 h.1 h.2.1
      have h2 : M.r env.eps ⟨i, hi⟩ j ≤ δ / 2 := h.2.2.2.2.2.2.1
      linarith
    · have h1 := hr _ j h.2.2.1 h.1 h.2.1
      have h2 : M.r env.eps ⟨i, hi⟩ j ≤ δ / 2 := h.2.2.2
      linarith
  have z1 : e1.get (i :: b) = e.get (i :: b) := by
    rw [hg1 b hb ⟨i, hi⟩, hg b hb ⟨i, hi⟩]
    simp only [Option.getD_some]
    rw [hsys c1 rfl]
    have hcut : ∀ (u : ℝ) (j k : Fin n), j ≠ k → M.Z j ≠ 0 → M.Z k ≠ 0 →
        (M.r env.eps j k ≤ max u (δ / 2) ↔ M.r env.eps j k ≤ u) := by
      intro u j k hjk hj hk
      have := hr j k hjk hj hk
      rw [le_max_iff]
      exact or_iff_left (by linarith)
    unfold Spec.energy Spec.e2 Spec.e3
    congr 1
    · refine congrArg _ (Finset.sum_congr rfl fun j _ => if_congr ?_ rfl rfl)
      refine and_congr_right fun hi => and_congr_right fun hj => and_congr_right fun hij => ?_
      exact hcut c.disp2 _ j hij hi hj
    · refine congrArg _ (Finset.sum_congr rfl fun j _ => Finset.sum_congr rfl fun k _ => if_congr ?_ rfl rfl)
      refine and_congr_right fun hi => and_congr_right fun hj => and_congr_right fun hk => and_congr_right fun hij =>
        and_congr_right fun hik => and_congr_right fun hjk => ?_
      exact and_congr (hcut c.disp3 _ j hij hi hj) (hcut c.disp3 j k hjk hj hk)
  rw [z0, z1, sub_zero] at hb'
  exact hb'

end

/-! ## Concrete cases: any number of hydrogen atoms on a line -/

namespace Demo

/-- `n` hydrogen atoms. -/
def rowNumbers (n : ℕ) : Tensor ℕ := ⟨none, [n], fun _ => 1⟩

/-- Two Bohr apart on a line. -/
noncomputable def rowPositions (n : ℕ) : Tensor ℝ where
  err := none
  shape := [3, n]
  get
    | [0, i] => 2 * i
    | _ => 0

theorem row_call (n : ℕ) (c : Cutoff) (hc : 0 ≤ c.disp3) : Call env T ext (rowNumbers n) (rowPositions n)
    (scalar 0) param { opts := { cutoff := some c } } n [] .d4 cn eeq par where
  keys := keys
  args := {
    num := ⟨rfl, rfl⟩
    pos := ⟨rfl, rfl⟩
    lt := fun _ _ => by show 1 < 104; norm_num
    fits := fits
    charge := ⟨rfl, rfl⟩
    q := fun _ h => by simp at h
    rcov := fun _ h => by simp at h
    r4r2 := fun _ h => by simp at h
    rvdw := fun _ h => by simp at h }
  model := Or.inl ⟨"d4", rfl, keys "d4" (by simp), rfl⟩
  cn := CNFunc.ofSpec_perSystem _ _ _
  eeq := eeqOfSpec_perSystem eeq rfl _
  damping := rfl
  par := reads
  cut3 := hc

theorem row_spaced (n : ℕ) : Spec.Spaced 2 (elements (rowNumbers n) n []) (coords (rowPositions n) n []) := by
  intro i j hij _ _
  refine le_trans ?_ (Packing.coord_le _ _ 0)
  have e : ∀ i : Fin n, coords (rowPositions n) n [] i 0 = 2 * (i.1 : ℝ) := fun i => rfl
  rw [e, e, ← mul_sub, abs_mul, abs_of_pos (by norm_num : (0 : ℝ) < 2)]
  have h1 : (1 : ℤ) ≤ |(i.1 : ℤ) - j.1| := Int.one_le_abs (sub_ne_zero.2 fun h => hij (Fin.ext (by exact_mod_cast h)))
  have h2 : (1 : ℝ) ≤ |(i.1 : ℝ) - j.1| := by exact_mod_cast h1
  linarith

theorem sqrt_eps_le_two : √env.eps ≤ 2 := by
  refine le_trans ((Real.sqrt_le_one).2 ?_) one_le_two
  show (1 : ℝ) / 2 ^ 52 ≤ 1
  norm_num

/-- One constant for all rows and all cutoffs. -/
example : ∃ K : ℝ, ∀ (n : ℕ) (c : Cutoff), 0 ≤ c.disp3 → ∃ e, dftd4 env T ext (rowNumbers n) (rowPositions n)
    (scalar 0) param { opts := { cutoff := some c } } = .ok e ∧ ∀ i < n, |e.get [i]| ≤ K := by
  obtain ⟨K, hK⟩ := C86_energy (env := env) (T := T) (R := .d4) (P := par) (δ := 2) physical
    (by norm_num [RefCfg.d4]) (by norm_num [RefCfg.d4]) (by norm_num [par]) (by norm_num [par]) sqrt_eps_le_two
  refine ⟨K, fun n c hc => ?_⟩
  obtain ⟨e, he, hb⟩ := hK _ _ _ _ _ _ _ _ _ _ (row_call n c hc) rfl
  exact ⟨e, he, hb [] (by simp [InB]) (row_spaced n)⟩

/-- The default cutoffs and larger ones. -/
example : ∃ K₂ K₃ : ℝ, ∀ (n : ℕ) (c : ℝ), 60 ≤ c → ∃ e e', dftd4 env T ext (rowNumbers n) (rowPositions n)
      (scalar 0) param { opts := { cutoff := some {} } } = .ok e ∧
    dftd4 env T ext (rowNumbers n) (rowPositions n)
      (scalar 0) param { opts := { cutoff := some { disp2 := c, disp3 := c } } } = .ok e' ∧
    ∀ i < n, |e'.get [i] - e.get [i]| ≤ K₂ / 60 ^ 3 + K₃ / 40 ^ 2 := by
  obtain ⟨K₂, K₃, hK⟩ := C86_cutoff (env := env) (T := T) (R := .d4) (P := par) (δ := 2) physical
    (by norm_num [RefCfg.d4]) (by norm_num [RefCfg.d4]) (by norm_num [par]) (by norm_num [par]) sqrt_eps_le_two
  refine ⟨K₂, K₃, fun n c hc => ?_⟩
  obtain ⟨e, e', he, he', hb⟩ := hK _ _ _ _ _ _ _ {} _ _ {} { disp2 := c, disp3 := c }
    (row_call n {} (by norm_num [Defaults.disp3Cutoff])) rfl
    (by simpa [Defaults.disp2Cutoff] using hc) (by norm_num [Defaults.disp3Cutoff]; linarith) rfl
    (by norm_num [Defaults.disp2Cutoff]) (by norm_num [Defaults.disp3Cutoff])
  refine ⟨e, e', he, he', fun i hi => ?_⟩
  have := hb [] (by simp [InB]) (row_spaced n) i hi
  norm_num [Defaults.disp2Cutoff, Defaults.disp3Cutoff] at this ⊢
  exact this

end Demo

end TadDftd4
