import Verif.Lemmas.TermSmooth
import Verif.Props.C65

/-!
# C70: forces of every dispersion class

The statements of C42 and C65 about `dftd4`, for `Disp.calculate` of any class with any list of terms:
all damping functions, the exact three-body term and the van der Waals radii of D3.
Specification: `Spec/Forces.lean` (`force`), `Term.Generic` for the surfaces to be avoided by a term.
-/

set_option linter.unusedSimpArgs false

open scoped Classical Matrix

namespace TadDftd4

open Tensor

/-- `d.calculate` is called with system `b` of the batch at the positions `x`, and `E x` is the sum of
the energies returned for this system. -/
structure Disp.Total {n : ℕ} (env : Env) (T : Tables) (ext : Ext) (d : Disp) (numbers : Tensor ℕ)
    (positions : (Fin n → Spec.E3) → Tensor ℝ) (charge : Tensor ℝ) (p : Param) (o : CalcOpts)
    (B : Shape) (R : RefCfg) (cn : Spec.CN) (eeq : Spec.EEQ) (b : Idx)
    (E : (Fin n → Spec.E3) → ℝ) : Prop where
  runs : ∀ x, d.Runs env T ext numbers (positions x) charge p o n B R cn eeq
  batch : InB B b
  at_pos : ∀ x, coords (positions x) n b = x
  total : ∀ x e, d.calculate env T ext numbers (positions x) charge p o = .ok e →
    E x = ∑ i : Fin n, e.get (i.1 :: b)

section
variable {env : Env} {T : Tables} {ext : Ext} {numbers numbers' : Tensor ℕ} {d : Disp}
  {charge charge' : Tensor ℝ} {p : Param} {o o' : CalcOpts} {n m k : ℕ} {B B' : Shape} {b b' : Idx}
  {R : RefCfg} {cn : Spec.CN} {eeq : Spec.EEQ} {E : (Fin n → Spec.E3) → ℝ} {x : Fin n → Spec.E3}
  {positions : (Fin n → Spec.E3) → Tensor ℝ} {ν : WithTop ℕ∞}

theorem Disp.Total.eval (h : d.Total env T ext numbers positions charge p o B R cn eeq b E)
    {S : Term → Spec.Settings}
    (hS : ∀ t ∈ d.terms, TermPar env T R p (o.cutoff.getD {}) t (S t)) (x : Fin n → Spec.E3) :
    E x = ∑ i, (d.terms.map fun t =>
      t.energy (S t) (system T cn eeq numbers (positions x) charge o n b) i).sum := by
  obtain ⟨e, h1, -, h3⟩ := (h.runs x).eval hS
  rw [h.total x e h1]
  exact Finset.sum_congr rfl fun i _ => h3 b h.batch i

theorem contDiffAt_list_sum {X ι : Type} [NormedAddCommGroup X] [NormedSpace ℝ X] {x : X} {l : List ι}
    {f : ι → X → ℝ} (h : ∀ t ∈ l, ContDiffAt ℝ ν (f t) x) :
    ContDiffAt ℝ ν (fun y => (l.map fun t => f t y).sum) x := by
  induction l with
  | nil => simpa using contDiffAt_const
  | cons a l ih =>
    simp only [List.map_cons, List.sum_cons]
    exact (h a (by simp)).add (ih fun t ht => h t (by simp [ht]))

/-- At a geometry that is generic for each of its terms the total energy is as often continuously
differentiable as the coordination numbers and charges of the real atoms are. -/
theorem C70_smooth (h : d.Total env T ext numbers positions charge p o B R cn eeq b E)
    (hfl : env.fl = id) (hT : T.Physical R.rq) (hgc : 0 < R.gc)
    (hcn : ∀ i, elements numbers n b i ≠ 0 →
      ContDiffAt ℝ ν (fun y => cn n (elements numbers n b) y i) x)
    (heeq : o.q = none → ∀ i, elements numbers n b i ≠ 0 → ContDiffAt ℝ ν (fun y =>
      eeq n (o.cutoff.getD {}).cnEeq (elements numbers n b) y (charge.get b) i) x)
    (hg : ∀ t ∈ d.terms, t.Generic env.eps (R.spec T env.eps) p (o.cutoff.getD {})
      (system T cn eeq numbers (positions x) charge o n b)) :
    ContDiffAt ℝ ν E x := by
  obtain ⟨S, hS⟩ := (h.runs x).settings
  rw [show E = _ from funext (h.eval hS)]
  refine ContDiffAt.sum fun i _ => contDiffAt_list_sum fun t ht => ?_
  refine Term.energy_smooth (M := fun y => system T cn eeq numbers (positions y) charge o n b)
    (hS t ht) ((h.runs x).par t ht) hfl hT hgc ?_ (fun _ => rfl) ((h.runs x).args.Z_lt h.batch)
    (hg t ht) i
  constructor
  · intro y; rfl
  · intro y; rfl
  · intro i _
    have : (fun y => (system T cn eeq numbers (positions y) charge o n b).pos i) =
        fun y : Fin n → Spec.E3 => y i := by
      funext y; exact congrFun (h.at_pos y) i
    rw [this]
    exact (contDiff_apply ℝ Spec.E3 i).contDiffAt
  · intro i hi
    show ContDiffAt ℝ ν (fun y => cn n (elements numbers n b) (coords (positions y) n b) i) x
    simp only [h.at_pos]
    exact hcn i hi
  · intro i hi
    cases hq : o.q with
    | some q =>
      have : (fun y => (system T cn eeq numbers (positions y) charge o n b).q i) =
          fun _ => q.get (i.1 :: b) := by funext y; simp only [system, hq]
      rw [this]
      exact contDiffAt_const
    | none =>
      have : (fun y => (system T cn eeq numbers (positions y) charge o n b).q i) =
          fun y => eeq n (o.cutoff.getD {}).cnEeq (elements numbers n b) y (charge.get b) i := by
        funext y; simp only [system, hq, h.at_pos]
      rw [this]
      exact heeq hq i hi

/-- Moving the system by an isometry does not change its total energy. -/
theorem Disp.Total.isometry (h : d.Total env T ext numbers positions charge p o B R cn eeq b E)
    (hcn : cn.Invariant) (heeq : eeq.Invariant) (g : Spec.E3 ≃ᵢ Spec.E3) (x : Fin n → Spec.E3) :
    E (fun i => g (x i)) = E x := by
  obtain ⟨e, e', h1, h2, h3⟩ := C03_any_disp (h.runs x) ((h.runs fun i => g (x i)).args.pos) hcn heeq
  rw [h.total _ e' h2, h.total _ e h1]
  refine Finset.sum_congr rfl fun i _ => h3 b h.batch g (fun i => ?_) i
  rw [h.at_pos, h.at_pos]

/-- The forces on all atoms of a system add up to zero. -/
theorem C70_forces_sum_zero (h : d.Total env T ext numbers positions charge p o B R cn eeq b E)
    (hcn : cn.Invariant) (heeq : eeq.Invariant) (hd : DifferentiableAt ℝ E x) (k : Fin 3) :
    ∑ i, Spec.force E x i k = 0 :=
  force_sum_zero (h.isometry hcn heeq) hd k

/-- The torque of the forces about the origin is zero. -/
theorem C70_torque_zero (h : d.Total env T ext numbers positions charge p o B R cn eeq b E)
    (hcn : cn.Invariant) (heeq : eeq.Invariant) (hd : DifferentiableAt ℝ E x) :
    ∑ i, (x i).ofLp ⨯₃ Spec.force E x i = 0 :=
  torque_zero (h.isometry hcn heeq) hd

/-- The energy of a term depends on the real atoms only. -/
theorem Term.energy_congr_real {t : Term} {S : Spec.Settings} {M M' : Spec.Mol n} (hZ : M.Z = M'.Z)
    (hQ : M.Q = M'.Q) (hp : ∀ i, M'.Z i ≠ 0 → M.pos i = M'.pos i)
    (hc : ∀ i, M'.Z i ≠ 0 → M.cn i = M'.cn i) (hq : ∀ i, M'.Z i ≠ 0 → M.q i = M'.q i)
    (hv : M.rvdw = M'.rvdw) (i : Fin n) : t.energy S M i = t.energy S M' i := by
  have hr : ∀ i j, M'.Z i ≠ 0 → M'.Z j ≠ 0 → M.r S.ε i j = M'.r S.ε i j := by
    intro i j hi hj; rw [Spec.Mol.r, Spec.Mol.r, hp i hi, hp j hj]
  have hA : ∀ i, M'.Z i ≠ 0 → M.data t.chargeDep i = M'.data t.chargeDep i := by
    intro i hi
    unfold Spec.Mol.data Spec.Mol.atom Spec.Mol.neutral
    rw [hZ, hc i hi, hq i hi]
  have h3 : ∀ (c c' : Fin n → Fin n → Fin n → ℝ) (Rr Rr' : Fin n → Fin n → ℝ), Rr = Rr' →
      (∀ i j k, M'.Z i ≠ 0 → M'.Z j ≠ 0 → M'.Z k ≠ 0 → c i j k = c' i j k) →
      Spec.e3 S M c Rr i = Spec.e3 S M' c' Rr' i := by
    intro c c' Rr Rr' hR hc
    unfold Spec.e3
    congr 1
    refine Finset.sum_congr rfl fun j _ => Finset.sum_congr rfl fun k _ => ?_
    rw [hZ]
    by_cases h : M'.Z i ≠ 0 ∧ M'.Z j ≠ 0 ∧ M'.Z k ≠ 0
    · obtain ⟨hi, hj, hk⟩ := h
      refine if_congr ?_ ?_ rfl
      · simp only [Spec.withinCut3, hr i j hi hj, hr j k hj hk]
      · simp only [Spec.tripleTerm, hr i j hi hj, hr i k hi hk, hr j k hj hk, hc i j k hi hj hk, hR]
    · rw [if_neg (fun hc => h ⟨hc.1, hc.2.1, hc.2.2.1⟩), if_neg (fun hc => h ⟨hc.1, hc.2.1, hc.2.2.1⟩)]
  have hR0 : Spec.R0 S M = Spec.R0 S M' := by funext a b; unfold Spec.R0; rw [hQ]
  have hRv : Spec.R0vdw S M = Spec.R0vdw S M' := by funext a b; unfold Spec.R0vdw; rw [hv]
  unfold Term.energy
  cases t.cls with
  | twoBody =>
    simp only [Spec.e2]
    congr 1
    refine Finset.sum_congr rfl fun j _ => ?_
    rw [hZ]
    by_cases h : M'.Z i ≠ 0 ∧ M'.Z j ≠ 0
    · have hrad : Spec.rad S M i j = Spec.rad S M' i j := by unfold Spec.rad; rw [hQ, hv]
      rw [Spec.pairTerm, Spec.pairTerm, hr i j h.1 h.2, hA i h.1, hA j h.2, hQ, hrad]
    · rw [if_neg (fun hc => h ⟨hc.1, hc.2.1⟩), if_neg (fun hc => h ⟨hc.1, hc.2.1⟩)]
  | d4ATMApprox =>
    exact h3 _ _ _ _ hR0 fun i j k hi hj hk => by simp only [Spec.c9, hA i hi, hA j hj, hA k hk]
  | d4ATMExact =>
    exact h3 _ _ _ _ hR0 fun i j k hi hj hk => by simp only [hA i hi, hA j hj, hA k hk]
  | d3ATM =>
    exact h3 _ _ _ _ hRv fun i j k hi hj hk => by simp only [Spec.c9, hA i hi, hA j hj, hA k hk]

/-- There is no force on padding atoms. -/
theorem C70_padding_force_zero (h : d.Total env T ext numbers positions charge p o B R cn eeq b E)
    (hcn : cn.IgnoresPaddingPositions) (heeq : eeq.IgnoresPaddingPositions)
    {i : Fin n} (hi : elements numbers n b i = 0) (k : Fin 3) : Spec.force E x i k = 0 := by
  obtain ⟨S, hS⟩ := (h.runs x).settings
  refine force_zero_of_indep (fun y hy' => ?_) k
  have hy : ∀ j, elements numbers n b j ≠ 0 → y j = x j := fun j hj =>
    hy' j (by rintro rfl; exact hj hi)
  rw [h.eval hS, h.eval hS]
  refine Finset.sum_congr rfl fun j _ => congrArg List.sum (List.map_congr_left fun t _ =>
    Term.energy_congr_real (M := system T cn eeq numbers (positions y) charge o n b)
    (M' := system T cn eeq numbers (positions x) charge o n b) rfl rfl ?_ ?_ ?_ rfl j)
  · intro j hj
    show coords _ n b j = coords _ n b j
    rw [h.at_pos, h.at_pos]; exact hy j hj
  · intro j hj
    show cn n _ (coords _ n b) j = cn n _ (coords _ n b) j
    rw [h.at_pos, h.at_pos]
    exact hcn n _ y x hy j hj
  · intro j hj
    show (match o.q with
      | some q => q.get (j.1 :: b)
      | none => eeq n _ _ (coords _ n b) _ j) = (match o.q with
      | some q => q.get (j.1 :: b)
      | none => eeq n _ _ (coords _ n b) _ j)
    rw [h.at_pos, h.at_pos]
    cases o.q with
    | some q => rfl
    | none => exact heeq n _ _ y x _ hy j hj

/-- Forces turn with the molecule: rotating or reflecting (`O`) and shifting (`t`) all positions
rotates or reflects all forces. -/
theorem C70_rotation (h : d.Total env T ext numbers positions charge p o B R cn eeq b E)
    (hcn : cn.Invariant) (heeq : eeq.Invariant) {O : Matrix (Fin 3) (Fin 3) ℝ}
    (hO : O ∈ Matrix.orthogonalGroup (Fin 3) ℝ) (t : Fin 3 → ℝ) {y : Fin n → Spec.E3}
    (hy : ∀ i k, y i k = ∑ l, O k l * x i l + t k) (i : Fin n) (k : Fin 3) :
    Spec.force E y i k = ∑ l, O k l * Spec.force E x i l :=
  force_rotation (h.isometry hcn heeq) hO t hy i k

/-- Forces follow the labels of the atoms. -/
theorem C70_relabelling {positions' : (Fin n → Spec.E3) → Tensor ℝ} {E' : (Fin n → Spec.E3) → ℝ}
    (h : d.Total env T ext numbers positions charge p o B R cn eeq b E)
    (h' : d.Total env T ext numbers' positions' charge' p o' B R cn eeq b E')
    (hcn : cn.Equivariant) (heeq : eeq.Equivariant) (hcut : o'.cutoff = o.cutoff)
    {π : Equiv.Perm (Fin n)} (hπ : ∀ x, Relabelled π b numbers numbers' (positions x)
      (positions' (x ∘ π)) charge charge' o o') (x : Fin n → Spec.E3) (i : Fin n)
    (k : Fin 3) : Spec.force E' (x ∘ π) i k = Spec.force E x (π i) k := by
  refine force_relabelling (fun z => ?_) x i k
  obtain ⟨e, e', h1, h2, h3⟩ := C02_any_disp (h.runs z) (h'.runs (z ∘ π)) hcn heeq hcut
  rw [h.total _ e h1, h'.total _ e' h2,
    Fin.sum_univ_eq_sum_range (fun i => e'.get (i :: b)),
    Fin.sum_univ_eq_sum_range (fun i => e.get (i :: b))]
  exact ((h3 b h.batch π (hπ z)).2).symm

/-- Forces on the atoms of a system do not depend on padding atoms, nor on the batch. -/
theorem C70_padding {positions : (Fin (m + k) → Spec.E3) → Tensor ℝ}
    {positions' : (Fin m → Spec.E3) → Tensor ℝ} {E : (Fin (m + k) → Spec.E3) → ℝ}
    {E' : (Fin m → Spec.E3) → ℝ}
    (h : d.Total env T ext numbers positions charge p o B R cn eeq b E)
    (h' : d.Total env T ext numbers' positions' charge' p o' B' R cn eeq b' E')
    (hcn : cn.IgnoresPadding) (heeq : eeq.IgnoresPadding) (hcut : o.cutoff = o'.cutoff)
    (hpad : ∀ x, Padded m k b b' numbers numbers' (positions x) (positions' (x ∘ Fin.castAdd k))
      charge charge' o o') (x : Fin (m + k) → Spec.E3) (i : Fin m) (l : Fin 3) :
    Spec.force E x (Fin.castAdd k i) l = Spec.force E' (x ∘ Fin.castAdd k) i l := by
  refine force_castAdd (fun z => ?_) x i l
  obtain ⟨e, e', h1, h2, h3⟩ := C04_any_disp (h.runs z) (h'.runs (z ∘ Fin.castAdd k)) hcn heeq hcut
  obtain ⟨h4, h5⟩ := h3 b b' h.batch h'.batch (hpad z)
  rw [h.total _ e h1, h'.total _ e' h2, Fin.sum_univ_add]
  have : ∀ j : Fin k, e.get ((Fin.natAdd m j).1 :: b) = 0 := fun j =>
    h5 _ (by simp) (Fin.natAdd m j).2
  simp only [this, Finset.sum_const_zero, add_zero]
  exact Finset.sum_congr rfl fun j _ => h4 j j.2

/-- Back-propagating the sum of the energies of several systems of a batch gives every system its own
forces. -/
theorem C70_batch {S : (Fin n → Spec.E3) → ℝ}
    (h : d.Total env T ext numbers positions charge p o B R cn eeq b E)
    {s : Finset Idx} (hs : ∀ a ∈ s, InB B a) (hb : b ∈ s)
    (hfix : ∀ x y, ∀ a ∈ s, a ≠ b → ∀ c < 3, ∀ i < n,
      (positions x).get (c :: i :: a) = (positions y).get (c :: i :: a))
    (hS : ∀ x e, d.calculate env T ext numbers (positions x) charge p o = .ok e →
      S x = ∑ a ∈ s, ∑ i : Fin n, e.get (i.1 :: a)) (x : Fin n → Spec.E3) (i : Fin n) (k : Fin 3) :
    Spec.force S x i k = Spec.force E x i k := by
  have hc : ∀ y, S y = E y + (S x - E x) := by
    intro y
    obtain ⟨e, e', h1, h2, h3⟩ := C05_any_disp (h.runs y) (h.runs x) rfl
    rw [hS y e h1, hS x e' h2, h.total y e h1, h.total x e' h2, ← Finset.add_sum_erase s _ hb,
      ← Finset.add_sum_erase s _ hb]
    have : ∀ a ∈ s.erase b, ∑ i : Fin n, e.get (i.1 :: a) = ∑ i : Fin n, e'.get (i.1 :: a) := by
      intro a ha
      refine Finset.sum_congr rfl fun i _ => ?_
      obtain ⟨hab, has⟩ := Finset.mem_erase.1 ha
      exact h3 a a (hs a has) (hs a has) ⟨fun _ _ => rfl, fun _ _ _ => by omega,
        fun j hj c hc => hfix y x a has hab c hc j hj, rfl, rfl, fun _ _ => rfl, fun _ _ => rfl,
        fun _ _ _ _ => rfl⟩ i i.2
    rw [Finset.sum_congr rfl this]
    ring
  unfold Spec.force
  rw [show S = fun y => E y + (S x - E x) from funext hc, fderiv_add_const]

end

/-! ## Concrete cases: hydrogen fluoride next to water, for all four classes -/

namespace Demo

/-- Total energy of hydrogen fluoride, second system of the batch. -/
noncomputable def totalOf (cls : DispClass) (x : Fin 3 → Spec.E3) : ℝ :=
  match (dispOf cls).calculate env T ext numbers (positionsAt x) charge paramAll {} with
  | .ok e => ∑ i : Fin 3, e.get [i.1, 1]
  | .error _ => 0

theorem totalOf_total (cls : DispClass) : (dispOf cls).Total env T ext numbers positionsAt charge
    paramAll {} [2] .d4 cn eeq [1] (totalOf cls) where
  runs x := dispOf_runs cls { validArgs with pos := ⟨rfl, rfl⟩ }
  batch := by simp [InB]
  at_pos := totalEnergy.at_pos
  total x e he := by simp only [totalOf, he]

theorem genericOf (cls : DispClass) {t : Term} (ht : t ∈ (dispOf cls).terms) :
    t.Generic env.eps (RefCfg.d4.spec T env.eps) paramAll {}
      (system T cn eeq numbers (positionsAt xHF) charge {} 3 [1]) := by
  have hg := generic_HF
  have hdamp : t.damping = .rational ∨ t.damping = .zero := by
    have : t ∈ cls.terms := ht
    cases cls <;> simp only [DispClass.terms, List.mem_cons, List.not_mem_nil, or_false] at this <;>
      rcases this with rfl | rfl <;> simp
  constructor
  · exact hg.apart
  · intro _ i j hi hj hij; exact hg.cut2 i j hi hj hij
  · intro _ i j hi hj hij; exact hg.cut3 i j hi hj hij
  · intro i hi
    cases t.chargeDep
    · exact (zero_add (T.zeff _)).symm ▸ hg.zeff i hi
    · exact hg.charge i hi
  · intro _ i j k hi hj hk hij hik hjk
    exfalso
    change elements numbers 3 [1] i ≠ 0 at hi
    change elements numbers 3 [1] j ≠ 0 at hj
    change elements numbers 3 [1] k ≠ 0 at hk
    fin_cases i <;> fin_cases j <;> fin_cases k <;>
      simp [elements, numbers] at hi hj hk hij hik hjk
  · intro _ i j hi hj hij
    rcases hdamp with h | h <;> rw [h]
    · trivial
    · refine ⟨fun x hx => ?_, fun x hx => ?_, ?_⟩
      · simp only [paramAll, PVal.val.injEq] at hx; rw [← hx]; norm_num
      · simp only [paramAll, PVal.val.injEq] at hx; rw [← hx]; norm_num
      · show (0 : ℝ) ≤ 3
        norm_num
  · intro _ a1 a2 h1 h2 i j _ _ _
    simp only [paramAll, PVal.Is, PVal.val.injEq, reduceCtorEq, false_and, or_false] at h1 h2
    rw [← h1, ← h2]
    have := Spec.rsqrt_nonneg env.eps (3 * (system T cn eeq numbers (positionsAt xHF) charge {} 3 [1]).Q i *
      (system T cn eeq numbers (positionsAt xHF) charge {} 3 [1]).Q j)
    positivity
  · intro _ y hy i j _ _ _
    simp only [paramAll, PVal.Is, reduceCtorEq, true_and, false_or, Defaults.rs9] at hy
    rw [hy]
    show (0 : ℝ) ≤ 1 * 3
    norm_num

theorem totalOf_smooth (cls : DispClass) : ContDiffAt ℝ ⊤ (totalOf cls) xHF := by
  refine C70_smooth (totalOf_total cls) rfl physical (by norm_num [RefCfg.d4]) (fun i _ => ?_)
    (fun _ i _ => ?_) (fun t ht => genericOf cls ht)
  · refine cn_smooth (fun i j hi hj hij he => ?_) i
    have := dist_xHF hi hj hij
    rw [he, dist_self] at this
    norm_num at this
  · unfold eeq
    exact contDiffAt_const

/-- All classes: infinitely often differentiable energy, no net force, no net torque, no force on the
padding atom. -/
example (cls : DispClass) : ContDiffAt ℝ ⊤ (totalOf cls) xHF ∧
    (∀ k, ∑ i, Spec.force (totalOf cls) xHF i k = 0) ∧
    ∑ i, (xHF i).ofLp ⨯₃ Spec.force (totalOf cls) xHF i = 0 ∧
    ∀ k, Spec.force (totalOf cls) xHF 2 k = 0 := by
  have hd := (totalOf_smooth cls).differentiableAt (by simp)
  exact ⟨totalOf_smooth cls, C70_forces_sum_zero (totalOf_total cls) cn_invariant eeq_invariant hd,
    C70_torque_zero (totalOf_total cls) cn_invariant eeq_invariant hd,
    C70_padding_force_zero (totalOf_total cls) cn_ignores eeq_ignores rfl⟩

/-- Mirrored at the plane `x = 0` and shifted along `z`. -/
example (cls : DispClass) (i : Fin 3) : Spec.force (totalOf cls) (fun i => rigidMotion
    (Matrix.diagonal fun k => if k = 0 then -1 else 1) mirror_mem
    (EuclideanSpace.single 2 7) (xHF i)) i 0 = -Spec.force (totalOf cls) xHF i 0 := by
  rw [C70_rotation (totalOf_total cls) cn_invariant eeq_invariant mirror_mem
    (EuclideanSpace.single 2 7).ofLp (x := xHF) (fun i k => rigidMotion_apply _ _ _ _ k)]
  simp [Fin.sum_univ_three, Matrix.diagonal_apply]

/-- Hydrogen first. -/
noncomputable def totalOfS (cls : DispClass) (x : Fin 3 → Spec.E3) : ℝ :=
  match (dispOf cls).calculate env T ext numbersS (positionsAt x) charge paramAll {} with
  | .ok e => ∑ i : Fin 3, e.get [i.1, 1]
  | .error _ => 0

theorem totalOfS_total (cls : DispClass) : (dispOf cls).Total env T ext numbersS positionsAt charge
    paramAll {} [2] .d4 cn eeq [1] (totalOfS cls) where
  runs x := dispOf_runs cls { callSwap.args with pos := ⟨rfl, rfl⟩ }
  batch := by simp [InB]
  at_pos := totalEnergy.at_pos
  total x e he := by simp only [totalOfS, he]

example (cls : DispClass) (i : Fin 3) (k : Fin 3) :
    Spec.force (totalOfS cls) (xHF ∘ swap) i k = Spec.force (totalOf cls) xHF (swap i) k :=
  C70_relabelling (totalOf_total cls) (totalOfS_total cls) cn_equivariant eeq_equivariant rfl (fun x =>
    { num := fun i => by rw [swap_val]; rfl
      pos := fun i k => by simp [positionsAt, k.2, i.2]
      charge := rfl
      cutoff := rfl
      q := fun _ => rfl
      r4r2 := fun _ => rfl
      rvdw := fun _ _ => rfl }) xHF i k

/-- Hydrogen fluoride on its own. -/
noncomputable def totalOfAlone (cls : DispClass) (x : Fin 2 → Spec.E3) : ℝ :=
  match (dispOf cls).calculate env T ext numbersHF (positionsAlone x) chargeHF paramAll {} with
  | .ok e => ∑ i : Fin 2, e.get [i.1]
  | .error _ => 0

theorem totalOfAlone_total (cls : DispClass) : (dispOf cls).Total env T ext numbersHF positionsAlone
    chargeHF paramAll {} [] .d4 cn eeq [] (totalOfAlone cls) where
  runs x := dispOf_runs cls { validArgsHF with pos := ⟨rfl, rfl⟩ }
  batch := by simp [InB]
  at_pos := totalEnergyAlone.at_pos
  total x e he := by simp only [totalOfAlone, he]

example (cls : DispClass) (i : Fin 2) (k : Fin 3) :
    Spec.force (totalOf cls) xHF (Fin.castAdd 1 i) k =
      Spec.force (totalOfAlone cls) (xHF ∘ Fin.castAdd 1) i k :=
  C70_padding (m := 2) (k := 1) (totalOf_total cls) (totalOfAlone_total cls) cn_ignoresPadding
    eeq_ignoresPadding rfl (fun x =>
      { num := fun i hi => by interval_cases i <;> rfl
        pad := fun i h1 h2 => by interval_cases i; rfl
        pos := fun i hi c hc => by
          have : i < 3 := by omega
          simp only [positionsAt, positionsAlone, hi, hc, this, and_self, dite_true]
          rfl
        charge := rfl
        cutoff := rfl
        q := fun _ _ => rfl
        r4r2 := fun _ _ => rfl
        rvdw := fun _ _ _ _ => rfl }) xHF i k

/-- The energies of all atoms of the batch. -/
noncomputable def totalOfBatch (cls : DispClass) (x : Fin 3 → Spec.E3) : ℝ :=
  match (dispOf cls).calculate env T ext numbers (positionsAt x) charge paramAll {} with
  | .ok e => ∑ a ∈ {[0], [1]}, ∑ i : Fin 3, e.get (i.1 :: a)
  | .error _ => 0

example (cls : DispClass) (i : Fin 3) (k : Fin 3) :
    Spec.force (totalOfBatch cls) xHF i k = Spec.force (totalOf cls) xHF i k :=
  C70_batch (totalOf_total cls) (s := {[0], [1]}) (by simp [InB]) (by simp)
    (fun x y a ha hne c _ i _ => by
      have : a = [0] := by
        simp only [Finset.mem_insert, Finset.mem_singleton] at ha
        tauto
      subst this
      simp [positionsAt]) (fun x e he => by simp only [totalOfBatch, he]) xHF i k

/-! Registered two-body terms with the two other damping functions. -/

noncomputable def paramBet : Param := { paramAll with bet := .val 0.1 }

noncomputable def dispBet : Disp :=
  { dispOf .d4 with terms := [⟨.twoBody, .mzero, true⟩, ⟨.twoBody, .op, false⟩] }

noncomputable def totalBet (x : Fin 3 → Spec.E3) : ℝ :=
  match dispBet.calculate env T ext numbers (positionsAt x) charge paramBet {} with
  | .ok e => ∑ i : Fin 3, e.get [i.1, 1]
  | .error _ => 0

theorem totalBet_total : dispBet.Total env T ext numbers positionsAt charge paramBet {} [2] .d4 cn eeq
    [1] totalBet where
  runs x := by
    have h := (totalOf_total .d4).runs x
    refine ⟨h.args, h.model, h.cn, fun _ => eeqOfSpec_perSystem eeq rfl _, Or.inl rfl, fun t ht => ?_⟩
    have hm : Damping.Usable env .mzero paramBet := by
      constructor <;> simp [Damping.point, Damping.required, Damping.pointF, Param.kw, PVal.kw,
        paramBet, paramAll]
    have ho : Damping.Usable env .op paramBet := by
      constructor <;> simp [Damping.point, Damping.required, Damping.pointF, Param.kw, PVal.kw,
        paramBet, paramAll]
    simp only [dispBet, List.mem_cons, List.not_mem_nil, or_false] at ht
    rcases ht with rfl | rfl
    · exact ⟨fun _ => hm, by simp, by simp, by simp, by simp, by simp, by simp, by simp, by simp⟩
    · exact ⟨fun _ => ho, by simp, by simp, by simp, by simp, by simp, by simp, by simp, by simp⟩
  batch := by simp [InB]
  at_pos := totalEnergy.at_pos
  total x e he := by simp only [totalBet, he]

theorem genericBet {t : Term} (ht : t ∈ dispBet.terms) :
    t.Generic env.eps (RefCfg.d4.spec T env.eps) paramBet {}
      (system T cn eeq numbers (positionsAt xHF) charge {} 3 [1]) := by
  have hg := genericOf .d4 (t := ⟨.twoBody, .rational, true⟩) (by simp [dispOf, DispClass.terms])
  have hg0 := genericOf .d3BJ (t := ⟨.twoBody, .rational, false⟩) (by simp [dispOf, DispClass.terms])
  simp only [dispBet, List.mem_cons, List.not_mem_nil, or_false] at ht
  rcases ht with rfl | rfl
  · refine ⟨hg.apart, hg.cut2, hg.cut3, hg.charge, hg.c9, fun _ i j _ _ _ =>
      ⟨fun x hx => ?_, fun x hx => ?_, fun x hx => ?_, ?_⟩, by simp, by simp⟩
    · simp only [paramBet, paramAll, PVal.val.injEq] at hx; rw [← hx]; norm_num
    · simp only [paramBet, paramAll, PVal.val.injEq] at hx; rw [← hx]; norm_num
    · simp only [paramBet, paramAll, PVal.val.injEq] at hx; rw [← hx]; norm_num
    · show (0 : ℝ) < 3
      norm_num
  · refine ⟨hg0.apart, hg0.cut2, hg0.cut3, hg0.charge, hg0.c9, fun _ i j _ _ _ =>
      ⟨fun x hx => ?_, fun x hx => ?_⟩, by simp, by simp⟩
    · simp only [paramBet, paramAll, PVal.val.injEq] at hx; rw [← hx]; norm_num
    · simp only [paramBet, paramAll, PVal.val.injEq] at hx; rw [← hx]; norm_num

example : ContDiffAt ℝ ⊤ totalBet xHF ∧ ∀ k, ∑ i, Spec.force totalBet xHF i k = 0 := by
  have hs : ContDiffAt ℝ ⊤ totalBet xHF := by
    refine C70_smooth totalBet_total rfl physical (by norm_num [RefCfg.d4]) (fun i _ => ?_)
      (fun _ i _ => ?_) (fun t ht => genericBet ht)
    · refine cn_smooth (fun i j hi hj hij he => ?_) i
      have := dist_xHF hi hj hij
      rw [he, dist_self] at this
      norm_num at this
    · unfold eeq
      exact contDiffAt_const
  exact ⟨hs, C70_forces_sum_zero totalBet_total cn_invariant eeq_invariant
    (hs.differentiableAt (by simp))⟩

end Demo

end TadDftd4
