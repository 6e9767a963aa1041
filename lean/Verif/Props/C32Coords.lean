import Verif.Props.C32
import Verif.Props.AnyDisp

/-!
# C32: the number of coordinates

`Disp.calculate` compares all axes but the last of `positions` with the atomic numbers (`dispersion/base.py:354`).
-/

open scoped Classical

namespace TadDftd4

open Tensor

/-- The positions with further coordinates that are zero. -/
def Spec.inSpace (c : ℕ) (x : Tensor ℝ) : Tensor ℝ :=
  ⟨x.err, c :: x.shape.tail, fun i => if i.headD 0 < x.shape.headD 0 then x.get i else 0⟩

section
variable {env : Env} {T : Tables} {ext : Ext}

theorem cdist_inSpace {x : Tensor ℝ} {c c' n : ℕ} {B : Shape} (hx : x.shape = c' :: n :: B) (hc : c' ≤ c) :
    env.cdist (Spec.inSpace c x) = env.cdist x := by
  have key : ∀ f : ℕ → ℝ, (∀ k, c' ≤ k → f k = 0) → ∑ k ∈ Finset.range c, f k = ∑ k ∈ Finset.range c', f k := by
    intro f hf
    refine (Finset.sum_subset (Finset.range_mono hc) fun k _ hk => hf k ?_).symm
    simpa using hk
  unfold Env.cdist Spec.inSpace
  simp only [hx, List.tail_cons, List.headD_cons, Tensor.mk.injEq, true_and]
  funext i
  rcases i with _ | ⟨j, _ | ⟨i, b⟩⟩
  · rfl
  · rfl
  · simp only
    have e : ∀ i j : ℕ, ∑ k ∈ Finset.range c, (if k < c' then x.get (k :: i :: b) else 0) *
        (if k < c' then x.get (k :: j :: b) else 0) = ∑ k ∈ Finset.range c', x.get (k :: i :: b) * x.get (k :: j :: b) := by
      intro i j
      rw [key _ fun k hk => by simp [not_lt.2 hk]]
      refine Finset.sum_congr rfl fun k hk => ?_
      simp [Finset.mem_range.1 hk]
    rw [e, e, e]

/-- **C32**: the number of coordinates is not tested. Positions with two coordinates per atom, or any other number, give the
same outcome as positions whose further coordinates are zero, provided that coordination numbers and charges do. -/
theorem C32_coordinates (d : Disp) {numbers : Tensor ℕ} {positions charge : Tensor ℝ} (p : Param) (o : CalcOpts)
    {c c' n : ℕ} {B : Shape} (hp : positions.shape = c' :: n :: B) (hc : c' ≤ c)
    (hcn : d.cnFn numbers (Spec.inSpace c positions) d.counting = d.cnFn numbers positions d.counting)
    (heeq : d.UsesCharges → o.q = none → ext.eeq numbers (Spec.inSpace c positions) charge (o.cutoff.getD {}).cnEeq =
      ext.eeq numbers positions charge (o.cutoff.getD {}).cnEeq) :
    d.calculate env T ext numbers (Spec.inSpace c positions) charge p o =
      d.calculate env T ext numbers positions charge p o := by
  have hd := cdist_inSpace (env := env) hp hc
  have hs : (Spec.inSpace c positions).shape.tail = positions.shape.tail := rfl
  have ht : ∀ (t : Term) cnT m q r4 rv cut, t.calculate env T numbers (Spec.inSpace c positions) p cnT m q r4 rv cut =
      t.calculate env T numbers positions p cnT m q r4 rv cut := by
    intro t cnT m q r4 rv cut
    have h1 : pairDistances env numbers (Spec.inSpace c positions) = pairDistances env numbers positions := by
      unfold pairDistances; rw [hd]
    have h2 : dist2T env numbers (Spec.inSpace c positions) = dist2T env numbers positions := by
      unfold dist2T; rw [hd]
    unfold Term.calculate dispersion2 tDamp atmDispersion atmDamp atmAng
    simp only [h1, h2]
  have hq : d.charges ext numbers (Spec.inSpace c positions) charge (o.cutoff.getD {}) o.q =
      d.charges ext numbers positions charge (o.cutoff.getD {}) o.q := by
    unfold Disp.charges
    cases hu : d.terms.any (·.chargeDep) with
    | false => cases o.q <;> rfl
    | true =>
      cases ho : o.q with
      | some q => rfl
      | none =>
        have : d.UsesCharges := by
          obtain ⟨t, ht, h⟩ := List.any_eq_true.1 hu
          exact ⟨t, ht, h⟩
        simp only [heeq this ho]
  unfold Disp.calculate sumTerms
  simp only [hs, hcn, hq, ht]

end

namespace Demo

/-- A planar batch, with one coordination number and no charge for all atoms, whatever the positions are. -/
example (cls : DispClass) := C32_coordinates (env := env) (T := T) (ext := { ext with eeq := fun Z _ _ _ => full Z.shape 0 })
  { dispOf cls with cnFn := fun Z _ _ => full Z.shape 2 } (numbers := numbers)
  (positions := ⟨none, [2, 3, 2], fun i => (i.getD 0 0 + 2 * i.getD 1 0 : ℕ)⟩) (charge := charge) paramAll {} (c := 3) (c' := 2)
  rfl (by norm_num) rfl (fun _ _ => rfl)

end Demo

end TadDftd4
