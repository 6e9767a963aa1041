import Verif.Props.C16

/-!
# C18: D4S with constant weighting factors is D4
-/

set_option linter.unusedSimpArgs false

open scoped Classical

namespace TadDftd4

open Tensor

section
variable {env : Env} {T : Tables} {m : RefModel} {n : ℕ} {B : Shape} {w : ℝ}
  {co qo : Option (Tensor ℝ)} {cg qg : Idx → ℝ}

/-- The same model object as D4S with all pairwise weighting factors equal to `w`. -/
noncomputable def RefModel.constD4S (m : RefModel) (n : ℕ) (B : Shape) (w : ℝ) : RefModel :=
  { m with kind := .d4s, wf := full (n :: n :: B) w }

theorem expwD4_eq_D4S (hfl : env.fl = id) {Z r : ℕ}
    (h : T.refc Z r = 0 ∨ T.refc Z r = 1 ∨ T.refc Z r = 3) (w cn : ℝ) :
    expwD4S env T w Z cn r = expwD4 env T w Z cn r := by
  have e1 : ∀ x k, powD4S env w cn x k = powD4 env w cn x k := by
    intro x k; rw [powD4S_id hfl, powD4_id hfl]
  unfold expwD4S expwD4
  rcases h with h | h | h <;> simp [h, e1]

theorem RefModel.Good.constD4S (h : m.Good T n B) : (m.constD4S n B w).Good T n B :=
  ⟨h.num, h.fits, h.known, h.lim⟩

/-- The weights for every partner `k` are the D4 weights (exponentials without underflow). -/
theorem C18_weights (hfl : env.fl = id) (h : m.Good T n B) (hw : m.wf = scalar w)
    (hT : ∀ Z < T.nZ, ∀ r < nref, T.refc Z r = 0 ∨ T.refc Z r = 1 ∨ T.refc Z r = 3)
    (hc : D4.OptIs co n B cg) (hq : D4.OptIs qo n B qg) {b : Idx} {i k r : ℕ} (hb : InB B b)
    (hi : i < n) (hk : k < n) (hr : r < nref) :
    (D4S.weights env T (m.constD4S n B w) co qo).get (r :: i :: k :: b) =
      (D4.weights env T m co qo).get (r :: i :: b) := by
  rw [D4S.weights_get (h.constD4S (w := w)) ⟨rfl, rfl⟩ hc hq hb hi hk hr,
    D4.weights_get h hw hc hq hb hi hr]
  have hlt : m.numbers.get (i :: b) < T.nZ := h.lt _ (by rw [h.shape]; exact ⟨hi, hb⟩)
  have e : ∀ s < nref, expwD4S env T w (m.numbers.get (i :: b)) (cg (i :: b)) s =
      expwD4 env T w (m.numbers.get (i :: b)) (cg (i :: b)) s := fun s hs =>
    expwD4_eq_D4S hfl (hT _ hlt s hs) _ _
  have e2 : gwOf env T (m.numbers.get (i :: b)) (expwD4S env T w (m.numbers.get (i :: b))
      (cg (i :: b))) r = gwOf env T (m.numbers.get (i :: b)) (expwD4 env T w
      (m.numbers.get (i :: b)) (cg (i :: b))) r := by
    unfold gwOf gwTempOf
    rw [e r hr, Finset.sum_congr rfl fun s hs => e s (Finset.mem_range.1 hs)]
  show zetaAt _ _ _ _ _ _ _ _ * FP.toReal _ = zetaAt _ _ _ _ _ _ _ _ * FP.toReal _
  exact congrArg₂ (· * ·) rfl (congrArg FP.toReal e2)

/-- The C6 coefficients are those of D4; also for a user supplied `rc6`. -/
theorem C18_c6 (hfl : env.fl = id) (h : m.Good T n B) (hw : m.wf = scalar w)
    (hT : ∀ Z < T.nZ, ∀ r < nref, T.refc Z r = 0 ∨ T.refc Z r = 1 ∨ T.refc Z r = 3)
    (hrc : m.rc6.Ok (nref :: nref :: n :: n :: B))
    (hc : D4.OptIs co n B cg) (hq : D4.OptIs qo n B qg) {b : Idx} {i j : ℕ} (hb : InB B b)
    (hi : i < n) (hj : j < n) :
    (D4S.atomicC6 (m.constD4S n B w) (D4S.weights env T (m.constD4S n B w) co qo)).get
      (j :: i :: b) = (D4.atomicC6 m (D4.weights env T m co qo)).get (j :: i :: b) := by
  rw [D4S.atomicC6_get (m := m.constD4S n B w) hrc (D4S.weights_ok (h.constD4S (w := w)) ⟨rfl, rfl⟩ hc hq)
    hb hi hj, D4.atomicC6_get hrc (D4.weights_ok h hw hc hq) hb hi hj]
  refine c6Of_congr (fun _ _ _ _ => rfl) (fun a ha => ?_) (fun a ha => ?_)
  · exact C18_weights hfl h hw hT hc hq hb hi hj ha
  · exact C18_weights hfl h hw hT hc hq hb hj hi ha

/-- `D4SDebug` of a single system with default settings gives the C6 coefficients of the default D4
model. -/
theorem C18_debug {numbers : Tensor ℕ} (hfl : env.fl = id) (hn : numbers.Ok [n]) (hT : T.Fits)
    (hlt : numbers.AllLt T.nZ)
    (hT' : ∀ Z < T.nZ, ∀ r < nref, T.refc Z r = 0 ∨ T.refc Z r = 1 ∨ T.refc Z r = 3)
    (hc : D4.OptIs co n [] cg) (hq : D4.OptIs qo n [] qg) {i j : ℕ} (hi : i < n) (hj : j < n) :
    let m := mkModel env T .d4sDebug numbers
    let m' := mkModel env T .d4 numbers
    (m.atomicC6 (m.weights env T co qo)).get [j, i] =
      (m'.atomicC6 (m'.weights env T co qo)).get [j, i] := by
  intro m m'
  have hg : m'.Good T n [] := ⟨hn, hT, Or.inl rfl, hlt⟩
  have hr : m'.rc6.Ok [nref, nref, n, n] := getRefC6_ok hn hT (Or.inl rfl) hlt
  have hwf : m.wf = full [n, n] wfDefault := by
    show getWf T .d4sDebug numbers = _
    simp [getWf, hn.shape]
  have key := C18_c6 (w := wfDefault) hfl hg rfl hT' hr hc hq (b := []) InB_nil hi hj
  have e : D4S.weights env T m co qo = D4S.weights env T (m'.constD4S n [] wfDefault) co qo := by
    unfold D4S.weights D4S.gw D4S.gwTemp D4S.norm D4S.expw D4S.refcPow1 D4S.refcPow3 D4S.powT D4S.tmp
      D4S.arg
    rw [hwf]
    rfl
  show (D4S.atomicC6 m (D4S.weights env T m co qo)).get [j, i] = _
  rw [e]
  exact key

end

/-- Water and hydrogen fluoride without underflow. -/
example : (D4S.atomicC6 (Demo.model.constD4S 3 [2] 6)
    (D4S.weights Demo.env Demo.T (Demo.model.constD4S 3 [2] 6) none none)).get [1, 0, 0] =
    (D4.atomicC6 Demo.model (D4.weights Demo.env Demo.T Demo.model none none)).get [1, 0, 0] :=
  C18_c6 (b := [0]) rfl Demo.model_good rfl
    Demo.physical.refc
    (Demo.model_rc6.ok Demo.model_good) (Or.inl ⟨rfl, rfl⟩) (Or.inl ⟨rfl, rfl⟩) (by simp [InB])
    (by norm_num) (by norm_num)

example : (D4S.weights Demo.env Demo.T (Demo.model.constD4S 3 [2] 6) none none).get [2, 0, 1, 0] =
    (D4.weights Demo.env Demo.T Demo.model none none).get [2, 0, 0] :=
  C18_weights (b := [0]) (i := 0) (k := 1) (r := 2) rfl Demo.model_good rfl Demo.physical.refc
    (Or.inl ⟨rfl, rfl⟩) (Or.inl ⟨rfl, rfl⟩) (by simp [InB]) (by norm_num) (by norm_num)
    (by norm_num)

example := C18_debug (env := Demo.env) (numbers := (⟨none, [2], fun _ => 6⟩ : Tensor ℕ)) (n := 2)
  (co := some (full [2] 3)) (qo := none) (i := 0) (j := 1) rfl ⟨rfl, rfl⟩ Demo.fits
  (fun _ _ => show 6 < 104 by norm_num) Demo.physical.refc (Or.inr ⟨_, rfl, ⟨rfl, rfl⟩, rfl⟩)
  (Or.inl ⟨rfl, rfl⟩) (by norm_num) (by norm_num)

end TadDftd4
