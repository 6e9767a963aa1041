import Verif.Lemmas.AutogradEnergy

/-!
# NaN in the backward pass

If all Gaussians of an atom underflow, the division `expw / norm` is `0 / 0`. The value is replaced
(`torch.where`), but the backward pass of the division receives the gradient zero and yields
`0 / 0 = NaN` for the numerator, which spreads to the whole gradient.
-/

set_option linter.unusedSimpArgs false

open scoped Classical

namespace TadDftd4

namespace FP

@[simp] theorem nan_add (a : FP) : nan.add a = nan := by cases a <;> rfl
@[simp] theorem add_nan (a : FP) : a.add nan = nan := by cases a <;> rfl
@[simp] theorem nan_mul (a : FP) : nan.mul a = nan := by cases a <;> rfl
@[simp] theorem nan_neg : nan.neg = nan := rfl
@[simp] theorem nan_div (a : FP) : nan.div a = nan := by cases a <;> rfl

theorem sum_nan {l : List FP} (h : nan ∈ l) : FP.sum l = nan := by
  induction l with
  | nil => simp at h
  | cons a l ih =>
    show a.add (FP.sum l) = nan
    rcases List.mem_cons.1 h with h | h
    · rw [← h, nan_add]
    · rw [ih h, add_nan]

end FP

namespace Tape

variable {G : GradCfg} {n : ℕ} {X : GradSys n} {w x c : ℝ} {Z r : ℕ} {cn q : Tape}

/-- Whatever arrives, NaN is passed on. -/
def Bad (e : Tape) (x : ℝ) : Prop := ∀ g, e.back x g = .nan

theorem Bad.sum {m : ℕ} {f : Fin m → Tape} (i : Fin m) (h : Bad (f i) x) : Bad (.sum m f) x := by
  intro g
  refine FP.sum_nan ?_
  rw [List.mem_ofFn]
  exact ⟨i, h g⟩

theorem Bad.mul_left {a b : Tape} (h : Bad a x) : Bad (.mul a b) x := fun g => by
  simp [back, h _]

theorem Bad.mul_right {a b : Tape} (h : Bad b x) : Bad (.mul a b) x := fun g => by
  simp [back, h _]

theorem Bad.add_left {a b : Tape} (h : Bad a x) : Bad (.add a b) x := fun g => by
  simp [back, h _]

theorem Bad.add_right {a b : Tape} (h : Bad b x) : Bad (.add a b) x := fun g => by
  simp [back, h _]

theorem tmp_nan (hm : 0 < G.T.refc Z r) (hcn : cn.back x .nan = .nan) :
    (tmp G w Z r cn).back x .nan = .nan := by
  unfold tmp
  cases G.kind <;> simp [back, hm, hcn]

theorem powT_nan (hm : 0 < G.T.refc Z r) (hw : G.kind = .d4 → w ≠ 0)
    (hcn : cn.back x .nan = .nan) {i : ℕ} (hi : i ≠ 0) : (powT G w Z r cn i).back x .nan = .nan := by
  have ht := tmp_nan (G := G) (w := w) hm hcn
  unfold powT
  cases hk : G.kind <;> simp [back, hi, ht]
  rw [if_neg (hw hk)]
  exact ht

theorem expw_nan (hm : 0 < G.T.refc Z r) (hw : G.kind = .d4 → w ≠ 0)
    (hcn : cn.back x .nan = .nan) : (expw G w Z r cn).back x .nan = .nan := by
  have ht := tmp_nan (G := G) (w := w) hm hcn
  have hp := fun {i : ℕ} (hi : i ≠ 0) => powT_nan (G := G) (w := w) hm hw hcn hi
  unfold expw
  by_cases h3 : G.T.refc Z r = 3
  · simp [back, h3, hp]
  · by_cases h1 : G.T.refc Z r = 1
    · simp [back, h1, hp]
    · simp [back, h3, h1, hm, ht]

/-- All Gaussians have underflown: NaN, whatever arrives. -/
theorem gw_bad (hc : Tame cn x c) (hr : r < nref) (h1 : PowOk G w Z c) (hm : 0 < G.T.refc Z r)
    (h0 : normV G w Z c = 0) (hw : G.kind = .d4 → w ≠ 0) (hcn : cn.back x .nan = .nan) :
    Bad (gw G w Z r cn) x := by
  have hE : (expw G w Z r cn).eval x = .fin 0 := by
    rw [(Tame.expw hc hr h1).1]
    congr 1
    have hz := h0
    unfold normV at hz
    rw [Finset.sum_eq_zero_iff_of_nonneg (fun _ _ => expwSel_nonneg)] at hz
    exact hz r (Finset.mem_range.2 hr)
  have hN : (norm G w Z r cn).eval x = .fin 0 := by
    rw [(Tame.norm hc h1).1, if_pos hm, h0]
  have hD : FP.div (.fin 0) (.fin 0) = .nan := by simp [FP.div]
  have hv : (gwTemp G w Z r cn).eval x = .nan := by
    unfold gwTemp
    rw [eval, hE, hN, hD]
  have hb : (gwTemp G w Z r cn).back x (.fin 0) = .nan := by
    unfold gwTemp
    rw [back, hN, hD, expw_nan hm hw hcn, FP.nan_add]
  intro g
  unfold gw
  have hs : FP.isExceptional G.env.fmax ((gwTemp G w Z r cn).eval x) := by
    rw [hv]
    trivial
  rw [back, if_pos hs, if_pos hs, hb, FP.add_nan]

/-- An atom all of whose Gaussians have underflown. -/
structure Lost (G : GradCfg) (X : GradSys n) (x : ℝ) (i : Fin n) : Prop where
  refs : ∃ r < nref, 0 < G.T.refc (X.Z i) r
  wf : G.kind = .d4 → 1 ≤ G.wf (X.Z i) (X.Z i)
  norm : normV G (G.wf (X.Z i) (X.Z i)) (X.Z i) (X.cnFn i x) = 0

theorem Lost.energy {i : Fin n} (h : Lost G X x i) (hg : X.cnGrad = true) (rc : ℕ → ℕ → ℕ → ℕ → ℝ) :
    Bad (energy G X rc i) x := by
  obtain ⟨r, hr, hm⟩ := h.refs
  have hc : Tame (X.cn i) x (X.cnFn i x) := Tame.input
  have hw : Bad (weight G (G.wf (X.Z i) (X.Z i)) (X.Z i) r (X.cn i) (X.q i)) x :=
    (gw_bad hc hr (fun hk => Or.inl (h.wf hk)) hm h.norm
      (fun hk => by have := h.wf hk; linarith) (by simp [GradSys.cn, input, hg, back])).mul_right
  have hC : Bad (Tape.c6 G X rc X.q i i) x :=
    Bad.sum ⟨r, hr⟩ (Bad.sum ⟨r, hr⟩ hw.mul_left.mul_right)
  have h6 : Bad (Tape.sum n fun j => Tape.mul (Tape.c6 G X rc X.q i j) (damped G X 6 i j)) x :=
    Bad.sum i hC.mul_left
  refine Bad.add_left (Bad.add_right ?_)
  unfold twoBody
  cases G.s10 with
  | none => exact h6.mul_right.add_left.mul_right
  | some s => exact h6.mul_right.add_left.add_left.mul_right

end Tape

end TadDftd4
