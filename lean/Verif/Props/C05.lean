import Verif.Props.C04

/-!
# C05: systems of a batch do not influence each other
-/

open scoped Classical

namespace TadDftd4

open Tensor

section
variable {env : Env} {T : Tables} {ext : Ext} {numbers numbers' : Tensor ℕ}
  {positions positions' charge charge' : Tensor ℝ} {p : Param} {o o' : DftOpts} {n : ℕ}
  {B B' : Shape} {R : RefCfg} {cn : Spec.CN} {eeq : Spec.EEQ} {P : Spec.D4Par}

/-- Entry `b` of one input and entry `b'` of another one hold the same system (`Padded` without
padding atoms). -/
abbrev SameEntry (n : ℕ) (b b' : Idx) (numbers numbers' : Tensor ℕ)
    (positions positions' charge charge' : Tensor ℝ) (o o' : CalcOpts) : Prop :=
  Padded n 0 b b' numbers numbers' positions positions' charge charge' o o'

/-- Equal entries describe the same system. -/
theorem system_sameEntry {b b' : Idx} {o o' : CalcOpts}
    (hs : SameEntry n b b' numbers numbers' positions positions' charge charge' o o') :
    system T cn eeq numbers positions charge o n b =
      system T cn eeq numbers' positions' charge' o' n b' := by
  have hZ : elements numbers n b = elements numbers' n b' := by
    funext i; exact hs.num i i.2
  have hp : coords positions n b = coords positions' n b' := by
    funext i
    simp only [coords]
    congr 1
    funext c
    exact hs.pos i i.2 c c.2
  unfold system
  simp only [Spec.Mol.mk.injEq]
  refine ⟨hZ, hp, by rw [hZ, hp], ?_, ?_, ?_⟩
  · funext i
    have := hs.q i i.2
    rw [hs.cutoff, hZ, hp, hs.charge]
    cases h1 : o'.q <;> cases h2 : o.q <;> simp_all only [Option.map_some,
      Option.map_none, reduceCtorEq, Option.some.injEq]
  · funext i
    have := hs.r4r2 i i.2
    rw [hZ]
    cases h1 : o'.r4r2 <;> cases h2 : o.r4r2 <;> simp_all only [Option.map_some,
      Option.map_none, reduceCtorEq, Option.some.injEq]
  · funext i j
    have := hs.rvdw i i.2 j j.2
    rw [hZ]
    cases h1 : o'.rvdw <;> cases h2 : o.rvdw <;> simp_all only [Option.map_some,
      Option.map_none, reduceCtorEq, Option.some.injEq]

/-- The energies of a system depend only on its own entry of the batch, not on the other entries,
the shape of the batch or the place in it. No assumption on the coordination number and charge
functions besides acting on each system separately. -/
theorem C05_batch_independence (h : Call env T ext numbers positions charge p o n B R cn eeq P)
    (h' : Call env T ext numbers' positions' charge' p o' n B' R cn eeq P) :
    ∃ e e', dftd4 env T ext numbers positions charge p o = .ok e ∧
      dftd4 env T ext numbers' positions' charge' p o' = .ok e' ∧
      ∀ b b', InB B b → InB B' b' →
        SameEntry n b b' numbers numbers' positions positions' charge charge' o.opts o'.opts →
        ∀ i < n, e.get (i :: b) = e'.get (i :: b') := by
  obtain ⟨e, h1, -, h3⟩ := h.eval
  obtain ⟨e', h1', -, h3'⟩ := h'.eval
  refine ⟨e, e', h1, h1', fun b b' hb hb' hs i hi => ?_⟩
  rw [h3 b hb ⟨i, hi⟩, h3' b' hb' ⟨i, hi⟩, hs.cutoff]
  rw [system_sameEntry hs]

end

namespace Demo

/-- Replacing the other system of the batch (here: hydrogen fluoride by water). -/
noncomputable def numbers2 : Tensor ℕ := ⟨none, [3, 2], fun
  | [i, _] => Demo.numbers.get [i, 0]
  | _ => 0⟩

noncomputable def positions2 : Tensor ℝ := ⟨none, [3, 3, 2], fun
  | [c, i, _] => Demo.positions.get [c, i, 0]
  | _ => 0⟩

theorem call2 : Call env T ext numbers2 positions2 charge param {} 3 [2] .d4 cn eeq par :=
  { call with
    model := Or.inl ⟨"d4", rfl, keys "d4" (by simp), rfl⟩
    args := { validArgs with
      num := ⟨rfl, rfl⟩
      pos := ⟨rfl, rfl⟩
      lt := fun i _ => by
        show (numbers2.get i) < 104
        unfold numbers2
        dsimp only
        split
        · exact numbers_lt _
        · norm_num } }

end Demo

example : ∃ e e', dftd4 Demo.env Demo.T Demo.ext Demo.numbers Demo.positions Demo.charge Demo.param
    = .ok e ∧ dftd4 Demo.env Demo.T Demo.ext Demo.numbers2 Demo.positions2 Demo.charge Demo.param
    = .ok e' ∧ e.get [1, 0] = e'.get [1, 0] := by
  obtain ⟨e, e', h1, h2, h3⟩ := C05_batch_independence Demo.call Demo.call2
  exact ⟨e, e', h1, h2, h3 [0] [0] (by simp [InB]) (by simp [InB])
    ⟨fun _ _ => rfl, fun _ _ _ => by omega, fun _ _ _ _ => rfl, rfl, rfl, fun _ _ => rfl,
      fun _ _ => rfl, fun _ _ _ _ => rfl⟩ 1 (by norm_num)⟩

end TadDftd4
