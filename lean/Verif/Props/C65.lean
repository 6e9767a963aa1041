import Verif.Props.C02
import Verif.Props.C05
import Verif.Props.C42

/-!
# C65: forces turn with the molecule, follow its labels, and do not depend on padding and batch

Forces are those of `Spec/Forces.lean`, total energies those of `TotalEnergy` (C42), relabelled and
padded systems those of C02 and C04.
-/

open scoped Classical

namespace TadDftd4

open Tensor

section
variable {env : Env} {T : Tables} {ext : Ext} {numbers numbers' : Tensor ℕ}
  {charge charge' : Tensor ℝ} {p : Param} {o o' : DftOpts} {n m d : ℕ} {B B' : Shape} {b b' : Idx}
  {R : RefCfg} {cn : Spec.CN} {eeq : Spec.EEQ} {P : Spec.D4Par}

/-- Forces turn with the molecule: rotating or reflecting (`O`) and shifting (`t`) all positions
rotates or reflects all forces. -/
theorem C65_rotation {positions : (Fin n → Spec.E3) → Tensor ℝ} {E : (Fin n → Spec.E3) → ℝ}
    (h : TotalEnergy env T ext numbers positions charge p o B R cn eeq P b E)
    (hcn : cn.Invariant) (heeq : eeq.Invariant) {O : Matrix (Fin 3) (Fin 3) ℝ}
    (hO : O ∈ Matrix.orthogonalGroup (Fin 3) ℝ) (t : Fin 3 → ℝ) {x y : Fin n → Spec.E3}
    (hy : ∀ i k, y i k = ∑ l, O k l * x i l + t k) (i : Fin n) (k : Fin 3) :
    Spec.force E y i k = ∑ l, O k l * Spec.force E x i l :=
  force_rotation (h.isometry hcn heeq) hO t hy i k

/-- Forces follow the labels of the atoms. -/
theorem C65_relabelling {positions positions' : (Fin n → Spec.E3) → Tensor ℝ}
    {E E' : (Fin n → Spec.E3) → ℝ}
    (h : TotalEnergy env T ext numbers positions charge p o B R cn eeq P b E)
    (h' : TotalEnergy env T ext numbers' positions' charge' p o' B R cn eeq P b E')
    (hcn : cn.Equivariant) (heeq : eeq.Equivariant) (hcut : o'.opts.cutoff = o.opts.cutoff)
    {π : Equiv.Perm (Fin n)} (hπ : ∀ x, Relabelled π b numbers numbers' (positions x)
      (positions' (x ∘ π)) charge charge' o.opts o'.opts) (x : Fin n → Spec.E3) (i : Fin n)
    (k : Fin 3) : Spec.force E' (x ∘ π) i k = Spec.force E x (π i) k := by
  refine force_relabelling (fun z => ?_) x i k
  obtain ⟨e, e', h1, h2, h3⟩ := C02_relabelling (h.call z) (h'.call (z ∘ π)) hcn heeq hcut
  rw [h.total _ e h1, h'.total _ e' h2,
    Fin.sum_univ_eq_sum_range (fun i => e'.get (i :: b)),
    Fin.sum_univ_eq_sum_range (fun i => e.get (i :: b))]
  exact ((h3 b h.batch π (hπ z)).2).symm

/-- Forces on the atoms of a system do not depend on padding atoms, nor on the batch. -/
theorem C65_padding {positions : (Fin (m + d) → Spec.E3) → Tensor ℝ}
    {positions' : (Fin m → Spec.E3) → Tensor ℝ} {E : (Fin (m + d) → Spec.E3) → ℝ}
    {E' : (Fin m → Spec.E3) → ℝ}
    (h : TotalEnergy env T ext numbers positions charge p o B R cn eeq P b E)
    (h' : TotalEnergy env T ext numbers' positions' charge' p o' B' R cn eeq P b' E')
    (hcn : cn.IgnoresPadding) (heeq : eeq.IgnoresPadding)
    (hpad : ∀ x, Padded m d b b' numbers numbers' (positions x) (positions' (x ∘ Fin.castAdd d))
      charge charge' o.opts o'.opts) (x : Fin (m + d) → Spec.E3) (i : Fin m) (k : Fin 3) :
    Spec.force E x (Fin.castAdd d i) k = Spec.force E' (x ∘ Fin.castAdd d) i k := by
  have hE : ∀ z, E z = E' (z ∘ Fin.castAdd d) := by
    intro z
    obtain ⟨e, e', h1, h2, h3⟩ := C04_padding (h.call z) (h'.call (z ∘ Fin.castAdd d)) hcn heeq
    obtain ⟨h4, h5⟩ := h3 b b' h.batch h'.batch (hpad z)
    rw [h.total _ e h1, h'.total _ e' h2, Fin.sum_univ_add]
    have : ∀ j : Fin d, e.get ((Fin.natAdd m j).1 :: b) = 0 := fun j =>
      h5 _ (by simp) (Fin.natAdd m j).2
    simp only [this, Finset.sum_const_zero, add_zero]
    exact Finset.sum_congr rfl fun j _ => h4 j j.2
  exact force_castAdd hE x i k

/-- Back-propagating the sum of the energies of several systems of a batch gives every system its own
forces. -/
theorem C65_batch {positions : (Fin n → Spec.E3) → Tensor ℝ} {E S : (Fin n → Spec.E3) → ℝ}
    (h : TotalEnergy env T ext numbers positions charge p o B R cn eeq P b E)
    {s : Finset Idx} (hs : ∀ a ∈ s, InB B a) (hb : b ∈ s)
    (hfix : ∀ x y, ∀ a ∈ s, a ≠ b → ∀ c < 3, ∀ i < n,
      (positions x).get (c :: i :: a) = (positions y).get (c :: i :: a))
    (hS : ∀ x e, dftd4 env T ext numbers (positions x) charge p o = .ok e →
      S x = ∑ a ∈ s, ∑ i : Fin n, e.get (i.1 :: a)) (x : Fin n → Spec.E3) (i : Fin n) (k : Fin 3) :
    Spec.force S x i k = Spec.force E x i k := by
  have hc : ∀ y, S y = E y + (S x - E x) := by
    intro y
    obtain ⟨e, e', h1, h2, h3⟩ := C05_batch_independence (h.call y) (h.call x)
    rw [hS y e h1, hS x e' h2, h.total y e h1, h.total x e' h2, ← Finset.add_sum_erase s _ hb,
      ← Finset.add_sum_erase s _ hb]
    have : ∀ a ∈ s.erase b, ∑ i : Fin n, e.get (i.1 :: a) = ∑ i : Fin n, e'.get (i.1 :: a) := by
      intro a ha
      refine Finset.sum_congr rfl fun i _ => ?_
      obtain ⟨hab, has⟩ := Finset.mem_erase.1 ha
      exact h3 a a (hs a has) (hs a has) ⟨fun _ _ => rfl, fun _ _ _ => by omega,
        fun j hj c hc => hfix y x a has hab c hc j hj, rfl, rfl, fun _ _ => rfl, fun _ _ => rfl,
        fun _ _ _ _ => rfl⟩ i i.2
    rw [Finset.sum_congr rfl this]
    ring
  unfold Spec.force
  rw [show S = fun y => E y + (S x - E x) from funext hc, fderiv_add_const]

end

/-! ## Concrete cases: hydrogen fluoride, mirrored, relabelled, alone, and together with water -/

namespace Demo

theorem mirror_mem : (Matrix.diagonal fun k : Fin 3 => if k = 0 then (-1 : ℝ) else 1) ∈
    Matrix.orthogonalGroup (Fin 3) ℝ := by
  rw [Matrix.mem_orthogonalGroup_iff, Matrix.diagonal_transpose, Matrix.diagonal_mul_diagonal,
    ← Matrix.diagonal_one]
  congr 1
  funext k
  split <;> norm_num

/-- Mirrored at the plane `x = 0` and shifted along `z`. -/
example (i : Fin 3) : Spec.force totalHF (fun i => rigidMotion
    (Matrix.diagonal fun k => if k = 0 then -1 else 1) mirror_mem
    (EuclideanSpace.single 2 7) (xHF i)) i 0 = -Spec.force totalHF xHF i 0 := by
  rw [C65_rotation totalEnergy cn_invariant eeq_invariant mirror_mem
    (EuclideanSpace.single 2 7).ofLp (x := xHF) (fun i k => rigidMotion_apply _ _ _ _ k)]
  simp [Fin.sum_univ_three, Matrix.diagonal_apply]

/-- The total energy of hydrogen fluoride with the hydrogen atom first. -/
noncomputable def totalFH (x : Fin 3 → Spec.E3) : ℝ :=
  match dftd4 env T ext numbersS (positionsAt x) charge param with
  | .ok e => ∑ i : Fin 3, e.get [i.1, 1]
  | .error _ => 0

theorem totalEnergyFH : TotalEnergy env T ext numbersS positionsAt charge param {} [2] .d4 cn eeq par
    [1] totalFH where
  call x := { callSwap with args := { callSwap.args with pos := ⟨rfl, rfl⟩ } }
  batch := by simp [InB]
  at_pos := totalEnergy.at_pos
  total x e he := by
    simp only [totalFH, he]

example (i : Fin 3) (k : Fin 3) :
    Spec.force totalFH (xHF ∘ swap) i k = Spec.force totalHF xHF (swap i) k :=
  C65_relabelling totalEnergy totalEnergyFH cn_equivariant eeq_equivariant rfl (fun x =>
    { num := fun i => by rw [swap_val]; rfl
      pos := fun i k => by simp [positionsAt, k.2, i.2]
      charge := rfl
      cutoff := rfl
      q := fun _ => rfl
      r4r2 := fun _ => rfl
      rvdw := fun _ _ => rfl }) xHF i k

/-- Positions and total energy of hydrogen fluoride on its own. -/
noncomputable def positionsAlone (x : Fin 2 → Spec.E3) : Tensor ℝ where
  err := none
  shape := [3, 2]
  get
    | [k, i] => if h : k < 3 ∧ i < 2 then x ⟨i, h.2⟩ ⟨k, h.1⟩ else 0
    | _ => 0

noncomputable def totalAlone (x : Fin 2 → Spec.E3) : ℝ :=
  match dftd4 env T ext numbersHF (positionsAlone x) chargeHF param with
  | .ok e => ∑ i : Fin 2, e.get [i.1]
  | .error _ => 0

theorem totalEnergyAlone : TotalEnergy env T ext numbersHF positionsAlone chargeHF param {} [] .d4 cn
    eeq par [] totalAlone where
  call x := { callHF with args := { callHF.args with pos := ⟨rfl, rfl⟩ } }
  batch := by simp [InB]
  at_pos x := by
    funext i
    ext k
    simp only [coords, positionsAlone, k.2, i.2, and_self, dite_true]
  total x e he := by
    simp only [totalAlone, he]

example (i : Fin 2) (k : Fin 3) : Spec.force totalHF xHF (Fin.castAdd 1 i) k =
    Spec.force totalAlone (xHF ∘ Fin.castAdd 1) i k :=
  C65_padding (m := 2) (d := 1) totalEnergy totalEnergyAlone cn_ignoresPadding eeq_ignoresPadding
    (fun x =>
      { num := fun i hi => by interval_cases i <;> rfl
        pad := fun i h1 h2 => by interval_cases i; rfl
        pos := fun i hi c hc => by
          have : i < 3 := by omega
          simp only [positionsAt, positionsAlone, hi, hc, this, and_self, dite_true]
          rfl
        charge := rfl
        cutoff := rfl
        q := fun _ _ => rfl
        r4r2 := fun _ _ => rfl
        rvdw := fun _ _ _ _ => rfl }) xHF i k

/-- The energies of all atoms of the batch (water and hydrogen fluoride at the positions `x`). -/
noncomputable def totalBatch (x : Fin 3 → Spec.E3) : ℝ :=
  match dftd4 env T ext numbers (positionsAt x) charge param with
  | .ok e => ∑ a ∈ {[0], [1]}, ∑ i : Fin 3, e.get (i.1 :: a)
  | .error _ => 0

example (i : Fin 3) (k : Fin 3) : Spec.force totalBatch xHF i k = Spec.force totalHF xHF i k :=
  C65_batch totalEnergy (s := {[0], [1]}) (by simp [InB]) (by simp)
    (fun x y a ha hne c _ i _ => by
      have : a = [0] := by
        simp only [Finset.mem_insert, Finset.mem_singleton] at ha
        tauto
      subst this
      simp [positionsAt]) (fun x e he => by simp only [totalBatch, he]) xHF i k

end Demo

end TadDftd4
