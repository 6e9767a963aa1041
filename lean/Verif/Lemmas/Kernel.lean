import Verif.Lemmas.AtomicC6
import Verif.Model.ThreeBody
import Verif.Spec.Energy

/-!
# C6 of a system as a pair kernel
-/

set_option linter.unusedSimpArgs false

open scoped Classical

namespace TadDftd4

open Tensor

/-- Settings of a reference model: charge scaling, key of the reference charges, weighting factor
as function of the elements of the atom and of its partner. -/
structure RefCfg where
  kind : ModelKind
  ga : ℝ
  gc : ℝ
  rq : String
  wf : ℕ → ℕ → ℝ

/-- Gaussian sums of the two models. -/
noncomputable def expwSel (env : Env) (T : Tables) (kind : ModelKind) (w : ℝ) (Z : ℕ) (cn : ℝ)
    (r : ℕ) : ℝ :=
  match kind with
  | .d4 => expwD4 env T w Z cn r
  | _ => expwD4S env T w Z cn r

/-- Weight of reference `r` of atom `A` if its partner has atomic number `Zp`. -/
noncomputable def wtAt (env : Env) (T : Tables) (R : RefCfg) (A : Spec.AtomData) (Zp r : ℕ) : ℝ :=
  wtOf env T R.ga R.gc R.rq A.Z A.q (expwSel env T R.kind (R.wf A.Z Zp) A.Z A.cn) r

/-- C6 of two atoms as computed by the code. -/
noncomputable def c6At (env : Env) (T : Tables) (R : RefCfg) (A A' : Spec.AtomData) : ℝ :=
  c6Of (rc6At env T R.ga R.gc R.rq A.Z A'.Z) (wtAt env T R A A'.Z) (wtAt env T R A' A.Z)

/-- `m` is a model object for `numbers` with settings `R`. -/
structure RefModel.IsFor (env : Env) (T : Tables) (m : RefModel) (numbers : Tensor ℕ) (R : RefCfg)
    (n : ℕ) (B : Shape) : Prop where
  num : m.numbers = numbers
  good : m.Good T n B
  kind : m.kind = R.kind
  ga : m.ga = R.ga
  gc : m.gc = R.gc
  rq : m.refCharges = R.rq
  rc6 : m.rc6 = getRefC6 env T numbers m.ga m.gc m.refCharges
  wf : (m.kind = .d4 ∧ ∃ w, m.wf = scalar w ∧ ∀ Z Z', R.wf Z Z' = w) ∨
    ((m.kind = .d4s ∨ m.kind = .d4sDebug) ∧ m.wf.Ok (n :: n :: B) ∧
      ∀ b i k, InB B b → i < n → k < n →
        m.wf.get (k :: i :: b) = R.wf (numbers.get (i :: b)) (numbers.get (k :: b)))

section
variable {env : Env} {T : Tables} {m : RefModel} {numbers : Tensor ℕ} {R : RefCfg} {n : ℕ}
  {B : Shape}

theorem RefModel.IsFor.implemented (h : m.IsFor env T numbers R n B) :
    m.kind.implemented = true := by
  rcases h.wf with ⟨hk, _⟩ | ⟨hk | hk, _⟩ <;> rw [hk] <;> rfl

theorem c6Of_congr {rc rc' : ℕ → ℕ → ℝ} {W W' V V' : ℕ → ℝ}
    (h1 : ∀ a < nref, ∀ b < nref, rc a b = rc' a b) (h2 : ∀ a < nref, W a = W' a)
    (h3 : ∀ a < nref, V a = V' a) : c6Of rc W V = c6Of rc' W' V' := by
  unfold c6Of
  refine Finset.sum_congr rfl fun a ha => Finset.sum_congr rfl fun b hb => ?_
  have ha := Finset.mem_range.1 ha
  have hb := Finset.mem_range.1 hb
  rw [h1 a ha b hb, h2 a ha, h3 b hb]

/-- The C6 coefficients of a system: shape and values. -/
theorem model_c6_eval (h : m.IsFor env T numbers R n B) {co qo : Option (Tensor ℝ)}
    {cg qg : Idx → ℝ} (hc : D4.OptIs co n B cg) (hq : D4.OptIs qo n B qg) :
    (m.atomicC6 (m.weights env T co qo)).Ok (n :: n :: B) ∧
    ∀ b i j, InB B b → i < n → j < n →
      (m.atomicC6 (m.weights env T co qo)).get (j :: i :: b) =
        c6At env T R ⟨numbers.get (i :: b), cg (i :: b), qg (i :: b)⟩
          ⟨numbers.get (j :: b), cg (j :: b), qg (j :: b)⟩ := by
  have hg := h.good
  have hnum := h.num
  have hrc : m.rc6.Ok (nref :: nref :: n :: n :: B) := by
    rw [h.rc6, ← hnum]; exact getRefC6_ok hg.num hg.fits hg.known hg.lim
  have hrcg : ∀ b i j, InB B b → i < n → j < n → ∀ a < nref, ∀ c < nref,
      m.rc6.get (c :: a :: j :: i :: b) =
        rc6At env T R.ga R.gc R.rq (numbers.get (i :: b)) (numbers.get (j :: b)) a c := by
    intro b i j hb hi hj a ha c hc
    rw [h.rc6, ← hnum, getRefC6_get hg.num hg.fits hg.known hg.lim hb hi hj ha hc, h.ga, h.gc, h.rq]
  rcases h.wf with ⟨hk, w, hw, hR⟩ | ⟨hk, hw, hR⟩
  · have hwt := D4.weights_ok (env := env) hg hw hc hq
    have hk' : R.kind = .d4 := h.kind ▸ hk
    simp only [RefModel.weights, RefModel.atomicC6, hk]
    refine ⟨D4.atomicC6_ok hrc hwt, fun b i j hb hi hj => ?_⟩
    rw [D4.atomicC6_get hrc hwt hb hi hj]
    refine c6Of_congr (fun a ha c hc => hrcg b i j hb hi hj a ha c hc) (fun a ha => ?_)
      (fun a ha => ?_)
    · rw [D4.weights_get hg hw hc hq hb hi ha, wtAt, h.ga, h.gc, h.rq, hnum, hk', hR]; rfl
    · rw [D4.weights_get hg hw hc hq hb hj ha, wtAt, h.ga, h.gc, h.rq, hnum, hk', hR]; rfl
  · have hwt := D4S.weights_ok (env := env) hg hw hc hq
    have e1 : m.weights env T co qo = D4S.weights env T m co qo := by
      rcases hk with hk | hk <;> simp only [RefModel.weights, hk]
    have e2 : ∀ x, m.atomicC6 x = D4S.atomicC6 m x := by
      intro x; rcases hk with hk | hk <;> simp only [RefModel.atomicC6, hk]
    have e3 : expwSel env T R.kind = expwD4S env T := by
      rw [← h.kind]; rcases hk with hk | hk <;> rw [hk] <;> rfl
    rw [e1, e2]
    refine ⟨D4S.atomicC6_ok hrc hwt, fun b i j hb hi hj => ?_⟩
    rw [D4S.atomicC6_get hrc hwt hb hi hj]
    refine c6Of_congr (fun a ha c hc => hrcg b i j hb hi hj a ha c hc) (fun a ha => ?_)
      (fun a ha => ?_)
    · rw [D4S.weights_get hg hw hc hq hb hi hj ha, wtAt, h.ga, h.gc, h.rq, hnum, e3,
        hR b i j hb hi hj]
    · rw [D4S.weights_get hg hw hc hq hb hj hi ha, wtAt, h.ga, h.gc, h.rq, hnum, e3,
        hR b j i hb hj hi]

theorem c9Approx_ok {c6 : Tensor ℝ} (h : c6.Ok (n :: n :: B)) :
    (c9Approx env c6).Ok (n :: n :: n :: B) := by
  constructor <;> simp [c9Approx, ijT, ikT, jkT, h.err, h.shape]

theorem c9Approx_get {c6 : Tensor ℝ} (h : c6.Ok (n :: n :: B)) {b : Idx} {i j k : ℕ}
    (hb : InB B b) (hi : i < n) (hj : j < n) (hk : k < n) :
    (c9Approx env c6).get (k :: j :: i :: b) =
      env.ssqrt |c6.get (j :: i :: b) * c6.get (k :: i :: b) * c6.get (k :: j :: b)| := by
  simp [c9Approx, ijT, ikT, jkT, h.shape, pick_cons_lt hi, pick_cons_lt hj, pick_cons_lt hk,
    pick_of_InB hb]

theorem radiiBJ_ok {p : Param} {r4r2 : Tensor ℝ} {a1 a2 : ℝ} (h : r4r2.Ok (n :: B))
    (h1 : p.a1.tensor Defaults.a1 = scalar a1) (h2 : p.a2.tensor Defaults.a2 = scalar a2) :
    (radiiBJ env p r4r2).Ok (n :: n :: B) ∧ ∀ b i j, InB B b → i < n → j < n →
      (radiiBJ env p r4r2).get (j :: i :: b) =
        a1 * env.ssqrt (3 * r4r2.get (i :: b) * r4r2.get (j :: b)) + a2 := by
  have hq := qqT_ok h
  refine ⟨⟨by simp [radiiBJ, h1, h2, hq.err, hq.shape], by simp [radiiBJ, h1, h2, hq.shape]⟩, ?_⟩
  intro b i j hb hi hj
  simp [radiiBJ, h1, h2, hq.shape, pick_cons_lt hi, pick_cons_lt hj, pick_of_InB hb,
    qqT_get h hb hi hj]

theorem radiiVDW_ok {p : Param} {rvdw : Tensor ℝ} {rs9 : ℝ} (h : rvdw.Ok (n :: n :: B))
    (h1 : p.rs9.tensor Defaults.rs9 = scalar rs9) :
    (radiiVDW p rvdw).Ok (n :: n :: B) ∧ ∀ b i j, InB B b → i < n → j < n →
      (radiiVDW p rvdw).get (j :: i :: b) = rs9 * rvdw.get (j :: i :: b) := by
  refine ⟨⟨by simp [radiiVDW, h1, h.err, h.shape], by simp [radiiVDW, h1, h.shape]⟩, ?_⟩
  intro b i j hb hi hj
  simp [radiiVDW, h1, h.shape, pick_cons_lt hi, pick_cons_lt hj, pick_of_InB hb]

end
end TadDftd4
