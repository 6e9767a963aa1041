import Verif.Lemmas.Setup

/-!
# C02: energies follow a relabelling of the atoms
-/

open scoped Classical

namespace TadDftd4

open Tensor

/-- The second input is the first one with the atoms of system `b` relabelled by `π`: atom `i` of the
second is atom `π i` of the first. Per-atom and per-pair options are relabelled as well, everything
else is the same. -/
structure Relabelled {n : ℕ} (π : Equiv.Perm (Fin n)) (b : Idx) (numbers numbers' : Tensor ℕ)
    (positions positions' charge charge' : Tensor ℝ) (o o' : CalcOpts) : Prop where
  num : ∀ i : Fin n, numbers'.get (i.1 :: b) = numbers.get ((π i).1 :: b)
  pos : ∀ (i : Fin n) (k : Fin 3), positions'.get (k.1 :: i.1 :: b) =
    positions.get (k.1 :: (π i).1 :: b)
  charge : charge'.get b = charge.get b
  cutoff : o'.cutoff = o.cutoff
  q : ∀ i : Fin n, o'.q.map (·.get (i.1 :: b)) = o.q.map (·.get ((π i).1 :: b))
  r4r2 : ∀ i : Fin n, o'.r4r2.map (·.get (i.1 :: b)) = o.r4r2.map (·.get ((π i).1 :: b))
  rvdw : ∀ i j : Fin n, o'.rvdw.map (·.get (j.1 :: i.1 :: b)) =
    o.rvdw.map (·.get ((π j).1 :: (π i).1 :: b))

section
variable {env : Env} {T : Tables} {ext : Ext} {numbers numbers' : Tensor ℕ}
  {positions positions' charge charge' : Tensor ℝ} {p : Param} {o o' : DftOpts} {n : ℕ} {B : Shape}
  {R : RefCfg} {cn : Spec.CN} {eeq : Spec.EEQ} {P : Spec.D4Par}

theorem system_relabelled {π : Equiv.Perm (Fin n)} {b : Idx} {o o' : CalcOpts}
    (hcn : cn.Equivariant) (heeq : eeq.Equivariant)
    (h : Relabelled π b numbers numbers' positions positions' charge charge' o o') :
    system T cn eeq numbers' positions' charge' o' n b =
      (system T cn eeq numbers positions charge o n b).comap π := by
  have hZ : elements numbers' n b = elements numbers n b ∘ π := by
    funext i; exact h.num i
  have hp : coords positions' n b = coords positions n b ∘ π := by
    funext i
    simp only [coords, Function.comp]
    congr 1
    funext k
    exact h.pos i k
  unfold system Spec.Mol.comap
  simp only [Spec.Mol.mk.injEq]
  refine ⟨hZ, hp, ?_, ?_, ?_, ?_⟩
  · funext i; rw [hZ, hp]; exact hcn n π _ _ i
  · funext i
    have := h.q i
    rw [h.cutoff]
    cases h1 : o'.q <;> cases h2 : o.q <;> simp_all only [Option.map_some, Option.map_none,
      reduceCtorEq, Option.some.injEq]
    rw [h.charge]
    exact heeq n π _ _ _ _ i
  · funext i
    have := h.r4r2 i
    cases h1 : o'.r4r2 <;> cases h2 : o.r4r2 <;> simp_all only [Option.map_some, Option.map_none,
      reduceCtorEq, Option.some.injEq]
    rfl
  · funext i j
    have := h.rvdw i j
    cases h1 : o'.rvdw <;> cases h2 : o.rvdw <;> simp_all only [Option.map_some, Option.map_none,
      reduceCtorEq, Option.some.injEq]
    rfl

/-- Relabelling the atoms of a system relabels its energies and leaves their sum unchanged. -/
theorem C02_relabelling (h : Call env T ext numbers positions charge p o n B R cn eeq P)
    (h' : Call env T ext numbers' positions' charge' p o' n B R cn eeq P)
    (hcn : cn.Equivariant) (heeq : eeq.Equivariant) (hcut : o'.opts.cutoff = o.opts.cutoff) :
    ∃ e e', dftd4 env T ext numbers positions charge p o = .ok e ∧
      dftd4 env T ext numbers' positions' charge' p o' = .ok e' ∧
      ∀ b, InB B b → ∀ π : Equiv.Perm (Fin n),
        Relabelled π b numbers numbers' positions positions' charge charge' o.opts o'.opts →
        (∀ i : Fin n, e'.get (i.1 :: b) = e.get ((π i).1 :: b)) ∧
        ∑ i ∈ Finset.range n, e'.get (i :: b) = ∑ i ∈ Finset.range n, e.get (i :: b) := by
  obtain ⟨e, h1, -, h3⟩ := h.eval
  obtain ⟨e', h1', -, h3'⟩ := h'.eval
  refine ⟨e, e', h1, h1', fun b hb π hπ => ?_⟩
  have key : ∀ i : Fin n, e'.get (i.1 :: b) = e.get ((π i).1 :: b) := by
    intro i
    rw [h3' b hb i, h3 b hb (π i), system_relabelled hcn heeq hπ, hcut]
    exact Spec.energy_comap π.injective (fun j hj => absurd (π.surjective j) hj) i
  refine ⟨key, ?_⟩
  rw [← Fin.sum_univ_eq_sum_range (fun i => e'.get (i :: b)),
    ← Fin.sum_univ_eq_sum_range (fun i => e.get (i :: b))]
  simp_rw [key]
  exact Equiv.sum_comp π (fun i : Fin n => e.get (i.1 :: b))

end

/-! ## A concrete case: exchanging the first two atoms of both systems -/

namespace Demo

theorem cn_equivariant : cn.Equivariant := by
  intro n π Z pos i
  unfold cn
  refine Eq.trans ?_ (Equiv.sum_comp π _)
  refine Finset.sum_congr rfl fun j _ => ?_
  simp [π.injective.eq_iff]

theorem eeq_equivariant : eeq.Equivariant := by
  intro n π c Z pos Q i
  unfold eeq
  have := Equiv.sum_comp π (fun j => if Z j ≠ 0 then (1 : ℝ) else 0)
  simp only [Function.comp] at this ⊢
  rw [this]

def swap : Equiv.Perm (Fin 3) := Equiv.swap 0 1

def numbersS : Tensor ℕ where
  err := none
  shape := [3, 2]
  get
    | i :: b => numbers.get ((if i = 0 then 1 else if i = 1 then 0 else i) :: b)
    | _ => 0

noncomputable def positionsS : Tensor ℝ where
  err := none
  shape := [3, 3, 2]
  get
    | k :: i :: b => positions.get (k :: (if i = 0 then 1 else if i = 1 then 0 else i) :: b)
    | _ => 0

theorem swap_val (i : Fin 3) :
    (swap i).1 = if i.1 = 0 then 1 else if i.1 = 1 then 0 else i.1 := by
  fin_cases i <;> rfl

theorem callSwap : Call env T ext numbersS positionsS charge param {} 3 [2] .d4 cn eeq par :=
  { call with
    model := Or.inl ⟨"d4", rfl, keys "d4" (by simp), rfl⟩
    args := { validArgs with
      num := ⟨rfl, rfl⟩
      pos := ⟨rfl, rfl⟩
      lt := fun i _ => by
        rcases i with _ | ⟨i, b⟩
        · show 0 < 104; norm_num
        · exact numbers_lt _ } }

end Demo

/-- Fluorine first or hydrogen first: the energies are exchanged. -/
example : ∃ e e', dftd4 Demo.env Demo.T Demo.ext Demo.numbers Demo.positions Demo.charge Demo.param
    = .ok e ∧ dftd4 Demo.env Demo.T Demo.ext Demo.numbersS Demo.positionsS Demo.charge Demo.param =
    .ok e' ∧ e'.get [0, 1] = e.get [1, 1] ∧ e'.get [1, 0] = e.get [0, 0] := by
  obtain ⟨e, e', h1, h2, h3⟩ := C02_relabelling Demo.call Demo.callSwap Demo.cn_equivariant
    Demo.eeq_equivariant rfl
  have hrel : ∀ b, Relabelled Demo.swap b Demo.numbers Demo.numbersS Demo.positions Demo.positionsS
      Demo.charge Demo.charge {} {} := by
    intro b
    refine ⟨fun i => ?_, fun i k => ?_, rfl, rfl, fun _ => rfl, fun _ => rfl, fun _ _ => rfl⟩
    · rw [Demo.swap_val]; rfl
    · rw [Demo.swap_val]; rfl
  exact ⟨e, e', h1, h2, (h3 [1] (by simp [InB]) Demo.swap (hrel _)).1 0,
    (h3 [0] (by simp [InB]) Demo.swap (hrel _)).1 1⟩

end TadDftd4
