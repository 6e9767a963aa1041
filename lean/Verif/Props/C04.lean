import Verif.Lemmas.Setup

/-!
# C04: padding does not change a system's energies
-/

open scoped Classical

namespace TadDftd4

open Tensor

/-- Entry `b` of the first input is entry `b'` of the second one followed by `k` padding atoms
(with arbitrary positions and options). -/
structure Padded (m k : ℕ) (b b' : Idx) (numbers numbers' : Tensor ℕ)
    (positions positions' charge charge' : Tensor ℝ) (o o' : CalcOpts) : Prop where
  num : ∀ i < m, numbers.get (i :: b) = numbers'.get (i :: b')
  pad : ∀ i, m ≤ i → i < m + k → numbers.get (i :: b) = 0
  pos : ∀ i < m, ∀ c < 3, positions.get (c :: i :: b) = positions'.get (c :: i :: b')
  charge : charge.get b = charge'.get b'
  cutoff : o.cutoff = o'.cutoff
  q : ∀ i < m, o.q.map (·.get (i :: b)) = o'.q.map (·.get (i :: b'))
  r4r2 : ∀ i < m, o.r4r2.map (·.get (i :: b)) = o'.r4r2.map (·.get (i :: b'))
  rvdw : ∀ i < m, ∀ j < m, o.rvdw.map (·.get (j :: i :: b)) = o'.rvdw.map (·.get (j :: i :: b'))

section
variable {env : Env} {T : Tables} {ext : Ext} {numbers numbers' : Tensor ℕ}
  {positions positions' charge charge' : Tensor ℝ} {p : Param} {o o' : DftOpts} {m k : ℕ}
  {B B' : Shape} {R : RefCfg} {cn : Spec.CN} {eeq : Spec.EEQ} {P : Spec.D4Par}

theorem system_padded {b b' : Idx} {o o' : CalcOpts} (hcn : cn.IgnoresPadding)
    (heeq : eeq.IgnoresPadding)
    (h : Padded m k b b' numbers numbers' positions positions' charge charge' o o') :
    system T cn eeq numbers' positions' charge' o' m b' =
      (system T cn eeq numbers positions charge o (m + k) b).comap (Fin.castAdd k) := by
  have hZ : elements numbers' m b' = elements numbers (m + k) b ∘ Fin.castAdd k := by
    funext i; exact (h.num i i.2).symm
  have hp : coords positions' m b' = coords positions (m + k) b ∘ Fin.castAdd k := by
    funext i
    simp only [coords, Function.comp]
    congr 1
    funext c
    exact (h.pos i i.2 c c.2).symm
  have hpad : ∀ j, elements numbers (m + k) b (Fin.natAdd m j) = 0 := by
    intro j
    exact h.pad (m + j) (by omega) (by omega)
  unfold system Spec.Mol.comap
  simp only [Spec.Mol.mk.injEq]
  refine ⟨hZ, hp, ?_, ?_, ?_, ?_⟩
  · funext i; rw [hZ, hp]; exact (hcn m k _ _ hpad i).symm
  · funext i
    have := h.q i i.2
    rw [← h.cutoff]
    cases h1 : o'.q <;> cases h2 : o.q <;> simp_all only [Option.map_some, Option.map_none,
      reduceCtorEq, Option.some.injEq]
    · rw [← h.charge]
      exact (heeq m k _ _ _ _ hpad i).symm
    · exact this.symm
  · funext i
    have := h.r4r2 i i.2
    cases h1 : o'.r4r2 <;> cases h2 : o.r4r2 <;> simp_all only [Option.map_some, Option.map_none,
      reduceCtorEq, Option.some.injEq]
    · rfl
    · exact this.symm
  · funext i j
    have := h.rvdw i i.2 j j.2
    cases h1 : o'.rvdw <;> cases h2 : o.rvdw <;> simp_all only [Option.map_some, Option.map_none,
      reduceCtorEq, Option.some.injEq]
    · rfl
    · exact this.symm

/-- A system packed into any place of a batch with padding atoms has the energies it has elsewhere
without padding (for example alone), and the padding atoms have none. -/
theorem C04_padding (h : Call env T ext numbers positions charge p o (m + k) B R cn eeq P)
    (h' : Call env T ext numbers' positions' charge' p o' m B' R cn eeq P)
    (hcn : cn.IgnoresPadding) (heeq : eeq.IgnoresPadding) :
    ∃ e e', dftd4 env T ext numbers positions charge p o = .ok e ∧
      dftd4 env T ext numbers' positions' charge' p o' = .ok e' ∧
      ∀ b b', InB B b → InB B' b' →
        Padded m k b b' numbers numbers' positions positions' charge charge' o.opts o'.opts →
        (∀ i < m, e.get (i :: b) = e'.get (i :: b')) ∧
        ∀ i, m ≤ i → i < m + k → e.get (i :: b) = 0 := by
  obtain ⟨e, h1, -, h3⟩ := h.eval
  obtain ⟨e', h1', -, h3'⟩ := h'.eval
  refine ⟨e, e', h1, h1', fun b b' hb hb' hpad => ⟨fun i hi => ?_, fun i hm hi => ?_⟩⟩
  · have a := h3 b hb (Fin.castAdd k ⟨i, hi⟩)
    have a' := h3' b' hb' ⟨i, hi⟩
    simp only [Fin.val_castAdd] at a
    rw [a, a', system_padded hcn heeq hpad, hpad.cutoff]
    refine (Spec.energy_comap (Fin.castAdd_injective m k) (fun j hj => ?_) _).symm
    refine Or.inl (hpad.pad j.1 ?_ j.2)
    by_contra hlt
    exact hj ⟨⟨j.1, by omega⟩, by ext; rfl⟩
  · rw [h3 b hb ⟨i, hi⟩]
    exact Spec.energy_pad (hpad.pad i hm hi)

/-- Atoms with atomic number zero have no energy, wherever they are. -/
theorem C04_padding_zero (h : Call env T ext numbers positions charge p o m B R cn eeq P) :
    ∃ e, dftd4 env T ext numbers positions charge p o = .ok e ∧
      ∀ b, InB B b → ∀ i < m, numbers.get (i :: b) = 0 → e.get (i :: b) = 0 := by
  obtain ⟨e, h1, -, h3⟩ := h.eval
  refine ⟨e, h1, fun b hb i hi h0 => ?_⟩
  rw [h3 b hb ⟨i, hi⟩]
  exact Spec.energy_pad h0

end

/-! ## A concrete case: hydrogen fluoride alone and padded -/

namespace Demo

theorem cn_ignoresPadding : cn.IgnoresPadding := by
  intro n k Z pos hpad i
  unfold cn
  rw [Fin.sum_univ_add]
  simp [hpad, (Fin.castAdd_injective n k).eq_iff]

theorem eeq_ignoresPadding : eeq.IgnoresPadding := by
  intro n k c Z pos Q hpad i
  unfold eeq
  simp only [Fin.sum_univ_add, Function.comp, hpad]
  simp

def numbersHF : Tensor ℕ := ⟨none, [2], fun
  | [0] => 9
  | [1] => 1
  | _ => 0⟩

noncomputable def positionsHF : Tensor ℝ := ⟨none, [3, 2], fun
  | [0, 1] => 1.8
  | _ => 0⟩

noncomputable def chargeHF : Tensor ℝ := scalar 1

theorem callHF : Call env T ext numbersHF positionsHF chargeHF param {} 2 [] .d4 cn eeq par :=
  { call with
    model := Or.inl ⟨"d4", rfl, keys "d4" (by simp), rfl⟩
    args := { validArgs with
      num := ⟨rfl, rfl⟩
      pos := ⟨rfl, rfl⟩
      charge := ⟨rfl, rfl⟩
      q := fun _ h => by simp at h
      rcov := fun _ h => by simp at h
      r4r2 := fun _ h => by simp at h
      rvdw := fun _ h => by simp at h
      lt := fun i _ => by
        show (numbersHF.get i) < 104
        unfold numbersHF
        dsimp only
        split <;> norm_num } }

theorem padded : Padded 2 1 [1] [] numbers numbersHF positions positionsHF charge chargeHF {} {} where
  num i hi := by interval_cases i <;> rfl
  pad i hm hi := by interval_cases i; rfl
  pos i hi c hc := by interval_cases i <;> interval_cases c <;> rfl
  charge := rfl
  cutoff := rfl
  q _ _ := rfl
  r4r2 _ _ := rfl
  rvdw _ _ _ _ := rfl

end Demo

example : ∃ e e', dftd4 Demo.env Demo.T Demo.ext Demo.numbers Demo.positions Demo.charge Demo.param
    = .ok e ∧ dftd4 Demo.env Demo.T Demo.ext Demo.numbersHF Demo.positionsHF Demo.chargeHF Demo.param
    = .ok e' ∧ e.get [0, 1] = e'.get [0] ∧ e.get [2, 1] = 0 := by
  obtain ⟨e, e', h1, h2, h3⟩ := C04_padding (m := 2) (k := 1) Demo.call Demo.callHF
    Demo.cn_ignoresPadding Demo.eeq_ignoresPadding
  have := h3 [1] [] (by simp [InB]) trivial Demo.padded
  exact ⟨e, e', h1, h2, this.1 0 (by norm_num), this.2 2 le_rfl (by norm_num)⟩

example : ∃ e, dftd4 Demo.env Demo.T Demo.ext Demo.numbers Demo.positions Demo.charge Demo.param
    = .ok e ∧ e.get [2, 1] = 0 := by
  obtain ⟨e, h1, h2⟩ := C04_padding_zero Demo.call
  exact ⟨e, h1, h2 [1] (by simp [InB]) 2 (by norm_num) rfl⟩

end TadDftd4
