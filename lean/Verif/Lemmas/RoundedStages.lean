import Verif.Lemmas.Rounded

/-!
# Calculations in two stages

Energies from computed distances and C6 coefficients are results that are possible for inputs with the
corresponding numbers of roundings.
-/

set_option linter.unusedSimpArgs false

open scoped Classical

namespace TadDftd4.Rounded

open Ex

/-- Results of `e` are possible for `f`. -/
def Relaxes (u : ℝ) (e f : Ex) : Prop := ∀ z, e.Rounds u z → f.Rounds u z

namespace Relaxes
variable {u : ℝ} {a a' b b' x x' y y' : Ex}

theorem refl (e : Ex) : Relaxes u e e := fun _ h => h

theorem inp {x y : ℝ} {k : ℕ} (h : Near u k x y) : Relaxes u (.inp y 0) (.inp x k) := by
  intro z hz
  cases hz with
  | inp hz =>
    have h1 := hz.1
    have h2 := hz.2
    rw [pow_zero, one_mul] at h1 h2
    rw [le_antisymm h2 h1]
    exact .inp h

theorem neg (h : Relaxes u a a') : Relaxes u (.neg a) (.neg a') := by
  intro z hz; cases hz with | neg h1 => exact .neg (h _ h1)
theorem add (h : Relaxes u a a') (g : Relaxes u b b') : Relaxes u (.add a b) (.add a' b') := by
  intro z hz; cases hz with | add h1 h2 h3 => exact .add (h _ h1) (g _ h2) h3
theorem sub (h : Relaxes u a a') (g : Relaxes u b b') : Relaxes u (.sub a b) (.sub a' b') := by
  intro z hz; cases hz with | sub h1 h2 h3 => exact .sub (h _ h1) (g _ h2) h3
theorem mul (h : Relaxes u a a') (g : Relaxes u b b') : Relaxes u (.mul a b) (.mul a' b') := by
  intro z hz; cases hz with | mul h1 h2 h3 => exact .mul (h _ h1) (g _ h2) h3
theorem div (h : Relaxes u a a') (g : Relaxes u b b') : Relaxes u (.div a b) (.div a' b') := by
  intro z hz; cases hz with | div h1 h2 h3 => exact .div (h _ h1) (g _ h2) h3
theorem sqrt (h : Relaxes u a a') : Relaxes u (.sqrt a) (.sqrt a') := by
  intro z hz; cases hz with | sqrt h1 h3 => exact .sqrt (h _ h1) h3
theorem abs (h : Relaxes u a a') : Relaxes u (.abs a) (.abs a') := by
  intro z hz; cases hz with | abs h1 => exact .abs (h _ h1)
theorem clampMin (c : ℝ) (h : Relaxes u a a') : Relaxes u (.clampMin a c) (.clampMin a' c) := by
  intro z hz; cases hz with | clampMin h1 => exact .clampMin (h _ h1)
theorem npow (k : ℕ) (h : Relaxes u a a') : Relaxes u (.npow a k) (.npow a' k) := by
  intro z hz; cases hz with | npow h1 h3 => exact .npow (h _ h1) h3
theorem rpow (p q : ℝ) (k : ℕ) (h : Relaxes u a a') : Relaxes u (.rpow a p q k) (.rpow a' p q k) := by
  intro z hz; cases hz with | rpow h1 h2 h3 => exact .rpow (h _ h1) h2 h3
theorem exp (h : Relaxes u a a') : Relaxes u (.exp a) (.exp a') := by
  intro z hz; cases hz with | exp h1 h3 => exact .exp (h _ h1) h3
theorem sum {n : ℕ} {f g : Fin n → Ex} (h : ∀ i, Relaxes u (f i) (g i)) :
    Relaxes u (.sum n f) (.sum n g) := by
  intro z hz; cases hz with | sum h1 h2 => exact .sum (fun i => h i _ (h1 i)) h2
theorem sel (h : Relaxes u a a') (g : Relaxes u b b') (k : Relaxes u x x') (l : Relaxes u y y') :
    Relaxes u (.sel a b x y) (.sel a' b' x' y') := by
  intro z hz
  cases hz with
  | sel_le h1 h2 h3 h4 => exact .sel_le (h _ h1) (g _ h2) h3 (k _ h4)
  | sel_gt h1 h2 h3 h4 => exact .sel_gt (h _ h1) (g _ h2) h3 (l _ h4)

end Relaxes

theorem c6From_relaxes {u : ℝ} (rc : ℕ → ℕ → ℝ) (kr : ℕ) (X Y : RefInput) {g g' h h' : ℕ → Ex}
    (hg : ∀ r < nref, Relaxes u (g r) (g' r)) (hh : ∀ r < nref, Relaxes u (h r) (h' r)) :
    Relaxes u (c6From rc kr X Y g h) (c6From rc kr X Y g' h') := by
  have R : ∀ e, Relaxes u e e := Relaxes.refl
  have wt : ∀ (X : RefInput) {e f : Ex}, Relaxes u e f → ∀ r, Relaxes u (X.wt e r) (X.wt f r) :=
    fun X e f h r => .mul (R _) (.sel (.mul (R _) h) (R _) (.mul (R _) h) (R _))
  exact .sum fun b => .mul (.sum fun a => .mul (R _) (wt X (hg a a.2) a)) (wt Y (hh b b.2) b)

theorem Input.relaxes {u : ℝ} {n : ℕ} (X : Input n) {d c6 c6n : Fin n → Fin n → ℝ}
    (hd : ∀ i j, X.Pair i j → Near u X.kd (X.d i j) (d i j))
    (hc : ∀ i j, Near u X.kc (X.c6 i j) (c6 i j)) (hn : ∀ i j, Near u X.kc (X.c6n i j) (c6n i j))
    (i : Fin n) : Relaxes u ((X.computed d c6 c6n).energy i) (X.energy i) := by
  obtain ⟨Y, hY⟩ : ∃ Y, Y = X.computed d c6 c6n := ⟨_, rfl⟩
  have R : ∀ e, Relaxes u e e := Relaxes.refl
  have dist : ∀ i j, X.Pair i j → Relaxes u (Y.dist i j) (X.dist i j) := fun i j h => by
    subst hY; exact .inp (hd i j h)
  have qq : ∀ i j, Relaxes u (Y.qq i j) (X.qq i j) := fun i j => by subst hY; exact R _
  have damped : ∀ k i j, Relaxes u (Y.damped k i j) (X.damped k i j) := by
    intro k i j
    have hp : Y.Pair i j ↔ X.Pair i j := by subst hY; exact Iff.rfl
    unfold Input.damped
    by_cases h : X.Pair i j
    · rw [if_pos h, if_pos (hp.2 h)]
      refine .sel (dist i j h) (by subst hY; exact R _) ?_ (R _)
      exact .div (R _) (.add (.npow k (dist i j h)) (.npow k (.add (.mul (by subst hY; exact R _)
        (.sqrt (qq i j))) (by subst hY; exact R _))))
    · rw [if_neg h, if_neg fun h' => h (hp.1 h')]
      exact R _
  have c6' : ∀ i j, Relaxes u (Y.coeff6 i j) (X.coeff6 i j) := fun i j => by
    subst hY; exact .inp (hc i j)
  have two : Relaxes u (Y.two i) (X.two i) := by
    have e6 : Relaxes u (Ex.sum n fun j => Ex.mul (Y.coeff6 i j) (Y.damped 6 i j))
        (Ex.sum n fun j => Ex.mul (X.coeff6 i j) (X.damped 6 i j)) :=
      .sum fun j => .mul (c6' i j) (damped 6 i j)
    have e8 : Relaxes u (Ex.sum n fun j => Ex.mul (Y.coeff8 i j) (Y.damped 8 i j))
        (Ex.sum n fun j => Ex.mul (X.coeff8 i j) (X.damped 8 i j)) :=
      .sum fun j => .mul (.mul (c6' i j) (qq i j)) (damped 8 i j)
    have e10 : Relaxes u (Ex.sum n fun j => Ex.mul (Y.coeff10 i j) (Y.damped 10 i j))
        (Ex.sum n fun j => Ex.mul (X.coeff10 i j) (X.damped 10 i j)) :=
      .sum fun j => .mul (.div (.mul (.mul (c6' i j) (.npow 2 (qq i j))) (R _)) (R _)) (damped 10 i j)
    have h10 : Y.s10 = X.s10 := by subst hY; rfl
    have h6 : Y.s6 = X.s6 := by subst hY; rfl
    have h8 : Y.s8 = X.s8 := by subst hY; rfl
    unfold Input.two
    rw [h10, h6, h8]
    cases X.s10 with
    | none => exact .mul (R _) (.add (.mul (R _) e6) (.mul (R _) e8))
    | some s => exact .mul (R _) (.add (.add (.mul (R _) e6) (.mul (R _) e8)) (.mul (R _) e10))
  have triple : ∀ i j k, Relaxes u (Y.triple i j k) (X.triple i j k) := by
    intro i j k
    have hp : Y.Triple i j k ↔ X.Triple i j k := by subst hY; exact Iff.rfl
    unfold Input.triple
    by_cases h : X.Triple i j k
    swap
    · rw [if_neg h, if_neg fun h' => h (hp.1 h')]
      exact R _
    rw [if_pos h, if_pos (hp.2 h)]
    obtain ⟨z1, z2, z3, n1, n2, n3⟩ := h
    have dij : Relaxes u (Y.d2 i j) (X.d2 i j) := .npow 2 (dist i j ⟨z1, z2, n1⟩)
    have dik : Relaxes u (Y.d2 i k) (X.d2 i k) := .npow 2 (dist i k ⟨z1, z3, n2⟩)
    have djk : Relaxes u (Y.d2 j k) (X.d2 j k) := .npow 2 (dist j k ⟨z2, z3, n3⟩)
    have r2 : Relaxes u (Y.r2 i j k) (X.r2 i j k) := .mul (.mul dij dik) djk
    have r1 : Relaxes u (Y.r1 i j k) (X.r1 i j k) := .sqrt r2
    have r3 : Relaxes u (Y.r3 i j k) (X.r3 i j k) := .mul r1 r2
    have r5 : Relaxes u (Y.r5 i j k) (X.r5 i j k) := .mul r2 r3
    have rad : ∀ i j, Relaxes u (Y.radius i j) (X.radius i j) := fun i j => by subst hY; exact R _
    have alp : Y.alp = X.alp := by subst hY; rfl
    have fd : Relaxes u (Y.fdamp i j k) (X.fdamp i j k) := by
      unfold Input.fdamp
      rw [alp]
      exact .div (R _) (.add (R _) (.mul (R _) (.rpow _ _ _ (.mul (R _)
        (.div (.mul (.mul (rad i j) (rad i k)) (rad j k)) r1)))))
    have angle : Relaxes u (Y.angle i j k) (X.angle i j k) :=
      .mul (.mul (.sub (.add dij djk) dik) (.add (.sub dij djk) dik)) (.add (.add (.neg dij) djk) dik)
    have cut : Y.cut3 = X.cut3 := by subst hY; rfl
    have ang : Relaxes u (Y.ang i j k) (X.ang i j k) := by
      unfold Input.ang
      rw [cut]
      exact .sel dij (R _) (.sel djk (R _) (.sel djk (R _) (.add (.div (.mul (R _) angle) r5)
        (.div (R _) r3)) (R _)) (R _)) (R _)
    have c9 : Relaxes u (Y.c9 i j k) (X.c9 i j k) := by
      subst hY
      exact .sqrt (.clampMin _ (.abs (.mul (.mul (.inp (hn i j)) (.inp (hn i k))) (.inp (hn j k)))))
    have h9 : Y.s9 = X.s9 := by subst hY; rfl
    rw [h9]
    exact .mul (.mul (.mul ang fd) (R _)) c9
  rw [← hY]
  exact .add (.add (R _) two) (.div (.sum fun m => triple _ _ _) (R _))

end TadDftd4.Rounded
