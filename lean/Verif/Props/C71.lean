import Verif.Lemmas.AutogradPair

/-!
# C71: gradients of `dispersion2` for every damping function

`dispersion2` with rational, zero, modified zero and optimised power damping, any parameter dictionary that can
be used with it (including `s10`), positions, C6 coefficients and
damping parameters as inputs. The graph recorded for the energy of an atom is modelled in
`Model/AutogradDamping.lean`.

* `C71_positions`: back-propagation to positions and C6 coefficients yields the derivative of the returned
  energy, for all damping functions and whatever padding contains;
* `C71_parameters_partial`: the same for every parameter, provided the radii of masked pairs and the smallest
  distance are harmless. What is missing: these conditions are not always met;
* `C71_mzero_padding_false`: with modified zero damping the gradients with respect to `rs6`, `rs8` and `alp`
  are NaN for every atom of a system that contains padding whose van der Waals radius is zero;
* `C71_op_underflow_false`: with optimised power damping the gradients with respect to `a1`, `a2` and `bet`
  are NaN for every atom of every system if the eighth power of `eps` underflows (single precision).
-/

set_option linter.unusedSimpArgs false

open scoped Classical Topology

namespace TadDftd4

open Tensor Tape Pair

/-- The inputs of the graph: system `b` of the batch.
Models src/tad_dftd4/dispersion/twobody.py:89-201. -/
noncomputable def pairSys (numbers : Tensor ℕ) (r4r2 rvdw : Tensor ℝ) (positions c6 : ℝ → Tensor ℝ)
    (isNone : DName → Bool) (v : ℝ → DName → ℝ) (n c : ℕ) (b : Idx) (geo : Bool) (par : DName → Bool) :
    PairSys n c where
  Z i := numbers.get (i.1 :: b)
  Q i := r4r2.get (i.1 :: b)
  rvdw i j := rvdw.get (j.1 :: i.1 :: b)
  posFn i k y := (positions y).get (k.1 :: i.1 :: b)
  c6T i j := .input geo (fun y => (c6 y).get (j.1 :: i.1 :: b)) 0
  parFn m y := v y m
  isNone := isNone
  posGrad := geo
  parGrad := par

section
variable {env : Env} {numbers : Tensor ℕ} {r4r2 rvdw : Tensor ℝ} {n c : ℕ} {B : Shape} {b : Idx}
  {d : Damping} {cutoff : Option ℝ} {x τ : ℝ}

section
variable {positions c6 : ℝ → Tensor ℝ} {v : ℝ → DName → ℝ} {geo : Bool} {par : DName → Bool}
  {isNone : DName → Bool}

theorem pairSys_ok {i j : Fin n} :
    ok (pairSys numbers r4r2 rvdw positions c6 isNone v n c b geo par) i j ↔ pairMask numbers b i.1 j.1 := by
  unfold ok pairMask pairSys
  simp [Fin.ext_iff]

theorem pairSys_radius {i j : Fin n} :
    radius (pairSys numbers r4r2 rvdw positions c6 isNone v n c b geo par) d i j = radAt d r4r2 rvdw b i.1 j.1 := by
  unfold Pair.radius radAt
  cases d.radiusType <;> rfl

theorem pairSys_sqD {i j : Fin n} {y : ℝ} :
    sqD (pairSys numbers r4r2 rvdw positions c6 isNone v n c b geo par) i j y =
      sqDist (positions y) c b i.1 j.1 := by
  unfold sqD sqDist
  rw [Finset.sum_range]
  rfl

theorem pairSys_distV {i j : Fin n} {y : ℝ} (h : pairMask numbers b i.1 j.1) :
    distV env (pairSys numbers r4r2 rvdw positions c6 isNone v n c b geo par) i j y =
      distAt env (positions y) c b i.1 j.1 := by
  rw [distV, if_pos (pairSys_ok.2 h), pairSys_sqD]
  rfl

/-- The value of the graph is the energy `dispersion2` returns. -/
theorem pairSys_energy (hs : ∀ y, D2Shapes numbers (positions y) (c6 y) r4r2 rvdw n c B) {p : ℝ → Param}
    (hp : ∀ y, d.Usable env (p y)) (hv : ∀ y, (p y).read = v y) (hn : ∀ y, (p y).isNone = isNone)
    (hb : InB B b) (i : Fin n) (y : ℝ) :
    enV env (pairSys numbers r4r2 rvdw positions c6 isNone v n c b geo par)
      (fun i j y => (c6 y).get (j.1 :: i.1 :: b)) d (cutoff.getD Defaults.disp2Cutoff) i y =
    (dispersion2 env numbers (positions y) (p y) (c6 y) r4r2 (some rvdw) d cutoff false).get (i.1 :: b) := by
  obtain ⟨f6, h6⟩ := (hp y).f6
  obtain ⟨f8, h8⟩ := (hp y).f8
  obtain ⟨-, -, -, he⟩ := dispersion2_eval (hs y) (hp y).extra h6 h8 (hp y).s6_is (hp y).s8_is (hp y).s10_is
    cutoff
  have e6 := Damping.point_eq (by simp) h6
  have e8 := Damping.point_eq (by simp) h8
  simp only [hv, hn] at e6 e8 he
  rw [he b i.1 hb i.2, Finset.sum_range]
  have hen : enV env (pairSys numbers r4r2 rvdw positions c6 isNone v n c b geo par)
      (fun i j y => (c6 y).get (j.1 :: i.1 :: b)) d (cutoff.getD Defaults.disp2Cutoff) i y = -0.5 * ∑ j,
      (v y .s6 * ((c6 y).get (j.1 :: i.1 :: b) * Pair.tV env (pairSys numbers r4r2 rvdw positions c6 isNone v n c
        b geo par) d (cutoff.getD Defaults.disp2Cutoff) 6 i j y) +
      v y .s8 * ((c6 y).get (j.1 :: i.1 :: b) * (3 * r4r2.get (i.1 :: b) * r4r2.get (j.1 :: b)) *
        Pair.tV env (pairSys numbers r4r2 rvdw positions c6 isNone v n c b geo par) d
          (cutoff.getD Defaults.disp2Cutoff) 8 i j y) +
      (if isNone .s10 then 0 else v y .s10) * ((c6 y).get (j.1 :: i.1 :: b) *
        (3 * r4r2.get (i.1 :: b) * r4r2.get (j.1 :: b)) ^ 2 * 49 / 40 *
        Pair.tV env (pairSys numbers r4r2 rvdw positions c6 isNone v n c b geo par) d
          (cutoff.getD Defaults.disp2Cutoff) 10 i j y)) := by
    rw [Finset.sum_add_distrib, Finset.sum_add_distrib, ← Finset.mul_sum, ← Finset.mul_sum, ← Finset.mul_sum]
    unfold enV
    by_cases h10 : isNone .s10 = true
    · simp only [pairSys, h10, if_true, zero_mul, add_zero]
    · simp only [pairSys, h10]
      rfl
  rw [hen]
  generalize (if isNone .s10 = true then 0 else v y .s10) = s10
  norm_num
  refine Finset.sum_congr rfl fun j _ => ?_
  unfold pairEnergy Pair.tV
  by_cases hm : pairMask numbers b i.1 j.1
  · rw [pairSys_distV hm, pairSys_radius]
    by_cases hc : distAt env (positions y) c b i.1 j.1 ≤ cutoff.getD Defaults.disp2Cutoff
    · rw [if_pos ⟨pairSys_ok.2 hm, hc⟩, if_pos ⟨pairSys_ok.2 hm, hc⟩, if_pos ⟨pairSys_ok.2 hm, hc⟩,
        if_pos ⟨hm, hc⟩, pairE, e6, e8]
      have hpv : parV (pairSys numbers r4r2 rvdw positions c6 isNone v n c b geo par) y = v y := rfl
      have hin : (pairSys numbers r4r2 rvdw positions c6 isNone v n c b geo par).isNone = isNone := rfl
      rw [hpv, hin]
    · rw [if_neg fun h => hc h.2, if_neg fun h => hc h.2, if_neg fun h => hc h.2, if_neg fun h => hc h.2]
      ring
  · rw [if_neg fun h => hm (pairSys_ok.1 h.1), if_neg fun h => hm (pairSys_ok.1 h.1),
      if_neg fun h => hm (pairSys_ok.1 h.1), if_neg fun h => hm h.1]
    ring

end

/-- **C71**, positions and C6 coefficients: let these depend on a scalar in any differentiable way (for
instance on a coordinate of an atom, with coordination numbers and charges in between). The graph of the
energy of an atom yields the energy `dispersion2` returns, and back-propagation its derivative. Real atoms
are apart, not at the cutoff and not so close that powers of distances underflow. Padding may contain
anything. -/
theorem C71_positions {positions c6 : ℝ → Tensor ℝ} {p : Param}
    (hs : ∀ y, D2Shapes numbers (positions y) (c6 y) r4r2 rvdw n c B) (hp : d.Usable env p) (hb : InB B b)
    (hpos : ∀ i k, DifferentiableAt ℝ (fun y => (positions y).get (k :: i :: b)) x)
    (hc6 : ∀ i j, DifferentiableAt ℝ (fun y => (c6 y).get (j :: i :: b)) x)
    (hok : ∀ i j, i < n → j < n → pairMask numbers b i j → ∀ k, k = 6 ∨ k = 8 →
      zeroed p.isNone k = false → DampAt d k p.read (radAt d r4r2 rvdw b i j))
    (hapart : ∀ i j, i < n → j < n → pairMask numbers b i j → env.eps < sqDist (positions x) c b i j)
    (hcut : ∀ i j, i < n → j < n → pairMask numbers b i j →
      distAt env (positions x) c b i j ≠ cutoff.getD Defaults.disp2Cutoff)
    (hfl : ∀ z, τ ≤ z → env.fl z = z)
    (hlarge : d ≠ .rational → ∀ i j, i < n → j < n → pairMask numbers b i j → ∀ k ∈ [5, 6, 7, 8],
      τ < distAt env (positions x) c b i j ^ k) (i : Fin n) :
    let E := fun y => (dispersion2 env numbers (positions y) p (c6 y) r4r2 (some rvdw) d cutoff).get (i.1 :: b)
    let graph := Pair.energy env (pairSys numbers r4r2 rvdw positions c6 p.isNone (fun _ => p.read) n c b true
      fun _ => false) d (cutoff.getD Defaults.disp2Cutoff) i
    graph.eval x = .fin (E x) ∧ DifferentiableAt ℝ E x ∧ ∀ g, graph.back x (.fin g) = .fin (g * deriv E x) := by
  intro E graph
  obtain ⟨X, hX⟩ : ∃ X, X = pairSys numbers r4r2 rvdw positions c6 p.isNone (fun _ => p.read) n c b true
    fun _ => false := ⟨_, rfl⟩
  have hE : E = enV env X (fun i j y => (c6 y).get (j.1 :: i.1 :: b)) d (cutoff.getD Defaults.disp2Cutoff) i := by
    funext y
    rw [hX]
    exact (pairSys_energy (p := fun _ => p) hs (fun _ => hp) (fun _ => rfl) (fun _ => rfl) hb i y).symm
  have hm : ∀ {i j : Fin n}, ok X i j → pairMask numbers b i.1 j.1 := by
    intro i j h
    rw [hX] at h
    exact pairSys_ok.1 h
  have hd : ∀ {i j : Fin n}, ok X i j → ∀ y, distV env X i j y = distAt env (positions y) c b i.1 j.1 := by
    intro i j h y
    have := hm h
    rw [hX]
    exact pairSys_distV this
  have hposF : ∀ i k, Fine (Pair.pos X i k) (X.posFn i k) x := by
    intro i k
    rw [hX]
    exact Fine.input (hpos i.1 k.1) fun h => by simp [pairSys] at h
  have hdist : ∀ i j, ok X i j → Fine (distance env X i j) (distV env X i j) x := by
    intro i j h
    refine (Fine.sel_true (P := fun _ => ok X i j) (fine_cdist (hposF i) (hposF j) ?_)
      (Tame.const (c := env.eps)) (.of_forall fun _ => h)).congr' fun y => ?_
    · have := hapart i j i.2 j.2 (hm h)
      rw [hX, pairSys_sqD]
      exact this
    · rw [distV, if_pos h]
  have hO : Pair.Ok env X (fun i j y => (c6 y).get (j.1 :: i.1 :: b)) d (cutoff.getD Defaults.disp2Cutoff) τ x :=
    { par := fun m => by
        rw [hX]
        exact Fine.input (differentiableAt_const _) fun _ => ⟨p.read m, rfl⟩
      c6 := fun i j => by
        rw [hX]
        exact Fine.input (g := true) (hc6 i.1 j.1) fun h => by simp at h
      dist := hdist
      damp := fun i j h k hk hz => by
        rw [show X.isNone = p.isNone by rw [hX]; rfl] at hz
        have := hok i j i.2 j.2 (hm h) k hk hz
        rw [hX, pairSys_radius]
        exact this
      cut := fun i j h => by
        have hc := (hdist i j h).continuousAt
        have hne := hcut i j i.2 j.2 (hm h)
        rw [← hd h x] at hne
        rcases lt_or_gt_of_ne hne with hl | hl
        · exact Or.inl ((hc.eventually_lt continuousAt_const hl).mono fun _ h => h.le)
        · exact Or.inr ((continuousAt_const.eventually_lt hc hl).mono fun _ h => not_le.2 h)
      fl := hfl
      large := fun hr i j h k hk => by
        rw [hd h]
        exact hlarge hr i j i.2 j.2 (hm h) k hk
      ten := fun h => hp.ten (by rw [hX] at h; exact h)
      quiet := fun i j h k _ => by
        refine (dead_call (dead_distance h) fun m => ?_).quiet
        rw [hX]
        exact Dead.frozen }
  have hF := fine_energy hO i
  rw [← hE] at hF
  have hg : graph = Pair.energy env X d (cutoff.getD Defaults.disp2Cutoff) i := by rw [hX]
  rw [hg]
  exact ⟨hF.eval, hF.differentiableAt, hF.back⟩

section
variable {positions c6 : Tensor ℝ} {p : Param}

/-- The graph with the parameter `m` as variable.
Models src/tad_dftd4/dispersion/twobody.py:89-201. -/
noncomputable def dampGraph (env : Env) (numbers : Tensor ℕ) (r4r2 rvdw positions c6 : Tensor ℝ)
    (p : Param) (d : Damping) (cutoff : Option ℝ) (n c : ℕ) (b : Idx) (m : DName) (i : Fin n) : Tape :=
  Pair.energy env (pairSys numbers r4r2 rvdw (fun _ => positions) (fun _ => c6)
    p.isNone (fun y => Function.update p.read m y) n c b false fun m' => decide (m' = m)) d
    (cutoff.getD Defaults.disp2Cutoff) i

/-- **C71**, parameters that are given (or have a default): if `E y` is the energy `dispersion2` returns after `param[m] = y`, the graph
yields its value and back-propagation its derivative. Wherever the atoms are, unless powers of distances
of real atoms underflow. The radii have to be harmless also for masked pairs (that is, pairs with padding
and an atom with itself), and for optimised power damping powers of `eps` must not underflow; without these
conditions the statement is false, see below. -/
theorem C71_parameters_partial (hs : D2Shapes numbers positions c6 r4r2 rvdw n c B)
    (hp : d.Usable env p) (hb : InB B b) {m : DName} (hpm : p.isNone m = false)
    (hok : ∀ i j, i < n → j < n → ∀ k, k = 6 ∨ k = 8 → zeroed p.isNone k = false →
      DampAt d k p.read (radAt d r4r2 rvdw b i j))
    (hfl : ∀ z, τ ≤ z → env.fl z = z)
    (hlarge : d ≠ .rational → ∀ i j, i < n → j < n → pairMask numbers b i j → ∀ k ∈ [5, 6, 7, 8],
      τ < distAt env positions c b i j ^ k)
    (hop : d = .op → 0 < env.fl (env.eps ^ 6) ∧ 0 < env.fl (env.eps ^ 8)) (i : Fin n) :
    let E := fun y => (dispersion2 env numbers positions (p.put m y) c6 r4r2 (some rvdw) d cutoff).get
      (i.1 :: b)
    let graph := dampGraph env numbers r4r2 rvdw positions c6 p d cutoff n c b m i
    graph.eval (p.read m) = .fin (E (p.read m)) ∧ DifferentiableAt ℝ E (p.read m) ∧
      ∀ g, graph.back (p.read m) (.fin g) = .fin (g * deriv E (p.read m)) := by
  intro E graph
  obtain ⟨X, hX⟩ : ∃ X, X = pairSys numbers r4r2 rvdw (fun _ => positions) (fun _ => c6)
    p.isNone (fun y => Function.update p.read m y) n c b false fun m' => decide (m' = m) := ⟨_, rfl⟩
  have hE : E = enV env X (fun i j _ => c6.get (j.1 :: i.1 :: b)) d (cutoff.getD Defaults.disp2Cutoff) i := by
    funext y
    rw [hX]
    exact (pairSys_energy (p := fun y => p.put m y) (fun _ => hs) (fun y => hp.put hpm y)
      (fun y => Param.put_read m y) (fun y => Param.put_isNone hpm y) hb i y).symm
  have hm : ∀ {i j : Fin n}, ok X i j → pairMask numbers b i.1 j.1 := by
    intro i j h
    rw [hX] at h
    exact pairSys_ok.1 h
  have hd : ∀ {i j : Fin n}, ok X i j → ∀ y, distV env X i j y = distAt env positions c b i.1 j.1 := by
    intro i j h y
    have := hm h
    rw [hX]
    exact pairSys_distV this
  have hpv : parV X (p.read m) = p.read := by
    funext m'
    rw [hX]
    show Function.update p.read m (p.read m) m' = p.read m'
    rw [Function.update_eq_self]
  have hin : X.isNone = p.isNone := by rw [hX]; rfl
  have hrad : ∀ i j : Fin n, ∀ k, k = 6 ∨ k = 8 → zeroed p.isNone k = false →
      DampAt d k (parV X (p.read m)) (radius X d i j) := by
    intro i j k hk hz
    have := hok i j i.2 j.2 k hk hz
    rw [hpv, hX, pairSys_radius]
    exact this
  have hO : Pair.Ok env X (fun i j _ => c6.get (j.1 :: i.1 :: b)) d (cutoff.getD Defaults.disp2Cutoff) τ (p.read m) :=
    { par := fun m' => by
        rw [hX]
        by_cases h : m' = m
        · subst h
          refine Fine.input ?_ fun h => by simp [pairSys] at h
          simp [pairSys]
        · refine Fine.input ?_ fun _ => ⟨p.read m', ?_⟩
          · simp [pairSys, Function.update, h]
          · funext y
            simp [pairSys, Function.update, h]
      c6 := fun i j => by
        rw [hX]
        show Fine (.input false (fun _ => c6.get (j.1 :: i.1 :: b)) 0) (fun _ => c6.get (j.1 :: i.1 :: b)) _
        exact Fine.input (differentiableAt_const _) fun _ => ⟨_, rfl⟩
      dist := fun i j _ => fine_distance_const (by rw [hX]; rfl) (fun i k y => by rw [hX]; rfl) i j
      damp := fun i j _ k hk hz => hrad i j k hk (by rw [← hin]; exact hz)
      cut := fun i j h => by
        simp only [hd h]
        by_cases hc : distAt env positions c b i.1 j.1 ≤ cutoff.getD Defaults.disp2Cutoff
        · exact Or.inl (.of_forall fun _ => hc)
        · exact Or.inr (.of_forall fun _ => hc)
      fl := hfl
      large := fun hr i j h k hk => by
        rw [hd h]
        exact hlarge hr i j i.2 j.2 (hm h) k hk
      ten := fun h => hp.ten (by rw [← hin]; exact h)
      quiet := fun i j h k hk => by
        have hD : Tame (distance env X i j) (p.read m) env.eps :=
          (tame_distance i j).congr (by rw [distV, if_neg h])
        refine quiet_call fun hz0 => ?_
        have hat : DampAt d k (parV X (p.read m)) (radius X d i j) := by
          rw [hin] at hz0 hk
          rcases hk with hk | hk | ⟨-, h10⟩
          · exact hrad i j k (Or.inl hk) hz0
          · exact hrad i j k (Or.inr hk) hz0
          · rw [hp.ten h10]
            trivial
        obtain ⟨z, hz⟩ := tame_damp (env := env) (d := d) (k := k) (V := Pair.par X)
          (v0 := parV X (p.read m)) (by rcases hk with rfl | rfl | ⟨rfl, -⟩ <;> decide) hD
          (fun m' => Tame.input) env.eps_pos hat fun h => by
            rw [Real.rpow_natCast]
            rcases hk with rfl | rfl | ⟨-, h10⟩
            · exact (hop h).1
            · exact (hop h).2
            · rw [hin] at h10
              rw [h] at hp
              cases hp.ten h10
        exact hz.quiet }
  have hF := fine_energy hO i
  rw [← hE] at hF
  have hg : graph = Pair.energy env X d (cutoff.getD Defaults.disp2Cutoff) i := by rw [hX]; rfl
  rw [hg]
  exact ⟨hF.eval, hF.differentiableAt, hF.back⟩

/-- The statement without the conditions is false of modified zero damping: if atom `j` is padding
whose van der Waals radius with atom `i` is zero, gradients of the energy of atom `i` with respect to the
scaling of radii and the exponent are NaN, whatever arrives. (The distance of the pair is `eps`, the
quotient `eps / (rs * 0)` infinite, and the gradient zero of the masked pair multiplied by it.) -/
theorem C71_mzero_padding_false {i j : Fin n} (hj : numbers.get (j.1 :: b) = 0)
    (hr : rvdw.get (j.1 :: i.1 :: b) = 0) (ha : 0 < p.read .alp) (hs6 : p.isNone .s6 = false) {m : DName}
    (hpm : p.isNone m = false) (hm : m = .rs6 ∨ m = .rs8 ∨ m = .alp) (g : FP) :
    (dampGraph env numbers r4r2 rvdw positions c6 p .mzero cutoff n c b m i).back (p.read m) g = .nan := by
  obtain ⟨X, hX⟩ : ∃ X, X = pairSys numbers r4r2 rvdw (fun _ => positions) (fun _ => c6)
    p.isNone (fun y => Function.update p.read m y) n c b false fun m' => decide (m' = m) := ⟨_, rfl⟩
  have hno : ¬ ok X i j := by
    rw [hX]
    exact fun h => (pairSys_ok.1 h).2.1 hj
  have hR : radius X .mzero i j = 0 := by rw [hX]; exact hr
  have hal : 0 < X.parFn .alp (p.read m) := by
    rw [hX]
    show 0 < Function.update p.read m (p.read m) .alp
    rw [Function.update_eq_self]
    exact ha
  have hgr : X.parGrad m = true := by rw [hX]; simp [pairSys]
  have hin : X.isNone = p.isNone := by rw [hX]; rfl
  have h6 : zeroed X.isNone 6 = false := by rw [hin]; simp [zeroed, hs6]
  have hn := par_nan (x := p.read m) hgr
  unfold dampGraph
  rw [← hX]
  rcases hm with rfl | rfl | rfl
  · exact bad_energy_six (bad_damped hno h6 (mzero_nan hno hR hal (Or.inl hn))) g
  · have h8 : zeroed X.isNone 8 = false := by rw [hin]; simp [zeroed, hpm]
    exact bad_energy_eight (bad_damped hno h8 (mzero_nan hno hR hal (Or.inl hn))) g
  · exact bad_energy_six (bad_damped hno h6 (mzero_nan hno hR hal (Or.inr hn))) g

/-- The statement without the conditions is false of optimised power damping: if the eighth power of
`eps` underflows to zero, as it does in single precision, the gradient of the energy of any atom with
respect to `bet`, and unless `bet` is zero with respect to `a1` and `a2`, is NaN, whatever arrives. Padding
is not needed: the pair of the atom with itself has the distance `eps`. -/
theorem C71_op_underflow_false {i : Fin n} (hfl : env.fl (env.eps ^ 8) = 0) (hs8 : p.isNone .s8 = false)
    (hr : 0 < p.read .a1 * √(3 * r4r2.get (i.1 :: b) * r4r2.get (i.1 :: b)) + p.read .a2) {m : DName}
    (hm : m = .bet ∨ (p.read .bet ≠ 0 ∧ (m = .a1 ∨ m = .a2))) (g : FP) :
    (dampGraph env numbers r4r2 rvdw positions c6 p .op cutoff n c b m i).back (p.read m) g = .nan := by
  obtain ⟨X, hX⟩ : ∃ X, X = pairSys numbers r4r2 rvdw (fun _ => positions) (fun _ => c6)
    p.isNone (fun y => Function.update p.read m y) n c b false fun m' => decide (m' = m) := ⟨_, rfl⟩
  have hno : ¬ ok X i i := fun h => h.2.2 rfl
  have hv : ∀ m', X.parFn m' (p.read m) = p.read m' := by
    intro m'
    rw [hX]
    show Function.update p.read m (p.read m) m' = p.read m'
    rw [Function.update_eq_self]
  have hgr : X.parGrad m = true := by rw [hX]; simp [pairSys]
  unfold dampGraph
  rw [← hX]
  have h8 : zeroed X.isNone 8 = false := by
    rw [show X.isNone = p.isNone by rw [hX]; rfl]
    simp [zeroed, hs8]
  refine bad_energy_eight (bad_damped hno h8 (op_nan hno ?_ ?_ ?_)) g
  · rw [Real.rpow_natCast]
    exact hfl
  · rw [hv, hv, hX]
    exact hr
  · rw [hv]
    rcases hm with rfl | ⟨h0, rfl | rfl⟩
    · exact Or.inl hgr
    · exact Or.inr ⟨h0, Or.inl hgr⟩
    · exact Or.inr ⟨h0, Or.inr hgr⟩

end
end

/-! ## A concrete case: hydrogen and a padding atom -/

namespace Demo

def numbersH2 : Tensor ℕ where
  err := none
  shape := [3]
  get
    | [0] => 1
    | [1] => 1
    | _ => 0

/-- The second atom is at `y`. -/
noncomputable def positionsH2 (y : ℝ) : Tensor ℝ where
  err := none
  shape := [1, 3]
  get
    | [0, 1] => y
    | _ => 0

/-- C6 coefficients that depend on the distance. -/
noncomputable def c6H2 (y : ℝ) : Tensor ℝ := full [3, 3] (5 + y ^ 2)

/-- The radii of padding are zero. -/
noncomputable def rvdwH2 : Tensor ℝ where
  err := none
  shape := [3, 3]
  get
    | [j, i] => if i < 2 ∧ j < 2 then 3 else 0
    | _ => 0

/-- All parameters, `s10` only with rational damping. -/
noncomputable def paramEvery (d : Damping) : Param where
  s6 := .val 1
  s8 := .val 1
  s10 := if d = .rational then .val 1 else .absent
  rs6 := .val 1
  rs8 := .val 1
  a1 := .val 1
  a2 := .val 1
  alp := .val 1
  bet := .val 1

theorem usableEvery (d : Damping) : d.Usable env (paramEvery d) := by
  have hn : ∀ m, m ≠ .s10 → (paramEvery d).isNone m = false := by
    intro m hm
    cases m <;> first | exact absurd rfl hm | rfl
  have hg : ∀ k, k = 6 ∨ k = 8 ∨ k = 10 ∧ d = .rational → d.Given k (paramEvery d).isNone := by
    rintro k (rfl | rfl | ⟨rfl, rfl⟩)
    · cases d <;> simp [Damping.Given, hn]
    · cases d <;> simp [Damping.Given, hn]
    · simp [Damping.Given, hn]
  exact
    { extra := rfl
      s6 := by simp [paramEvery]
      s8 := by simp [paramEvery]
      s10 := by
        simp only [paramEvery]
        split <;> simp
      f6 := ⟨_, Damping.point_of_given (by simp) (Or.inr (hg 6 (by simp)))⟩
      f8 := ⟨_, Damping.point_of_given (by simp) (Or.inr (hg 8 (by simp)))⟩
      f10 := fun h => ⟨_, Damping.point_of_given (by simp) (Or.inr (hg 10 (by
        refine Or.inr (Or.inr ⟨rfl, ?_⟩)
        by_contra hd
        simp [paramEvery, hd] at h)))⟩ }

theorem readEvery (d : Damping) {m : DName} (h : m ≠ .s10) : (paramEvery d).read m = 1 := by
  cases m <;> first | exact absurd rfl h | rfl

theorem dampAtEvery (d : Damping) {R : ℝ} (hR : 0 < R) (k : ℕ) : DampAt d k (paramEvery d).read R := by
  have := Real.sqrt_pos.2 hR
  cases d <;> simp [DampAt, readEvery, hR, hR.le] <;> positivity

theorem shapesH2 (y : ℝ) : D2Shapes numbersH2 (positionsH2 y) (c6H2 y) (full [3] 2) rvdwH2 3 1 [] :=
  ⟨⟨rfl, rfl⟩, ⟨rfl, rfl⟩, ⟨rfl, rfl⟩, ⟨rfl, rfl⟩, ⟨rfl, rfl⟩⟩

theorem maskH2 {i j : ℕ} (h : pairMask numbersH2 [] i j) : (i = 0 ∧ j = 1) ∨ (i = 1 ∧ j = 0) := by
  obtain ⟨h1, h2, h3⟩ := h
  rcases i with _ | _ | i <;> rcases j with _ | _ | j <;> simp_all [numbersH2]

theorem sqDistH2 {i j : ℕ} (h : pairMask numbersH2 [] i j) : sqDist (positionsH2 2) 1 [] i j = 4 := by
  rcases maskH2 h with ⟨rfl, rfl⟩ | ⟨rfl, rfl⟩ <;> simp [sqDist, positionsH2] <;> norm_num

theorem distH2 {i j : ℕ} (h : pairMask numbersH2 [] i j) : distAt env (positionsH2 2) 1 [] i j = 2 := by
  rw [distAt, sqDistH2 h, Env.ssqrt, max_eq_left (by norm_num [env]), show (4 : ℝ) = 2 ^ 2 by norm_num,
    Real.sqrt_sq (by norm_num)]

theorem dampAtH2 (d : Damping) {i j : ℕ} (h : pairMask numbersH2 [] i j) (k : ℕ) :
    DampAt d k (paramEvery d).read (radAt d (full [3] 2) rvdwH2 [] i j) := by
  refine dampAtEvery d ?_ k
  cases d <;> rcases maskH2 h with ⟨rfl, rfl⟩ | ⟨rfl, rfl⟩ <;>
    norm_num [radAt, Damping.radiusType, rvdwH2, full]

/-- The force on an atom for all four damping functions, although the radii of padding are zero. -/
example (d : Damping) (i : Fin 3) :=
  C71_positions (env := env) (d := d) (x := 2) (τ := 0) (cutoff := none) shapesH2 (usableEvery d) (b := [])
    trivial
    (fun i k => by
      rcases i with _ | _ | i <;> rcases k with _ | k <;> simp [positionsH2])
    (fun i j => by simp only [c6H2, full]; fun_prop)
    (fun i j _ _ h k _ _ => dampAtH2 d h k)
    (fun i j _ _ h => by rw [sqDistH2 h]; norm_num [env])
    (fun i j _ _ h => by rw [distH2 h]; norm_num [Defaults.disp2Cutoff])
    (fun z _ => rfl) (fun _ i j _ _ h k _ => by rw [distH2 h]; positivity) i

/-- Gradients with respect to all parameters of all four damping functions, with positive radii. -/
example (d : Damping) (m : DName) (hm : m = .s10 → d = .rational) (i : Fin 3) :=
  C71_parameters_partial (env := env) (d := d) (τ := 0) (cutoff := none) (b := [])
    (rvdw := full [3, 3] 3) (p := paramEvery d) (m := m)
    (⟨⟨rfl, rfl⟩, ⟨rfl, rfl⟩, ⟨rfl, rfl⟩, ⟨rfl, rfl⟩, ⟨rfl, rfl⟩⟩ :
      D2Shapes numbersH2 (positionsH2 2) (c6H2 2) (full [3] 2) (full [3, 3] 3) 3 1 [])
    (usableEvery d) trivial (by
      cases m <;> first | rfl | simp [Param.isNone, Param.arg, Param.kw, paramEvery, hm rfl, PVal.kw])
    (fun i j _ _ k _ _ => dampAtEvery d (by
      cases d <;> norm_num [radAt, Damping.radiusType, full]) k)
    (fun z _ => rfl) (fun _ i j _ _ h k _ => by rw [distH2 h]; positivity)
    (fun _ => by simp [env]) i

/-- The fit of modified zero damping to a batch with padding fails. -/
example : (dampGraph env numbersH2 (full [3] 2) rvdwH2 (positionsH2 2) (c6H2 2) (paramEvery .mzero) .mzero
    none 3 1 [] .rs6 0).back ((paramEvery .mzero).read .rs6) (.fin 1) = .nan :=
  C71_mzero_padding_false (m := .rs6) (j := 2) rfl (by simp [rvdwH2])
    (by rw [readEvery _ (by simp)]; exact one_pos) rfl rfl (Or.inl rfl) _

/-- Single precision: numbers below the smallest one are zero. -/
noncomputable def envSingle : Env where
  eps := 1 / 2 ^ 23
  eps_pos := by positivity
  fmax := 2 ^ 127
  one_le_fmax := one_le_pow₀ (by norm_num)
  fl z := if z < 1 / 2 ^ 149 then 0 else z
  fl_nonneg z h := by split <;> simp [h]

example : (dampGraph envSingle numbersH2 (full [3] 2) rvdwH2 (positionsH2 2) (c6H2 2) (paramEvery .op)
    .op none 3 1 [] .a1 0).back ((paramEvery .op).read .a1) (.fin 1) = .nan :=
  C71_op_underflow_false (m := .a1) (by simp only [envSingle]; rw [if_pos]; norm_num) rfl
    (by simp [full, readEvery]; positivity) (Or.inr ⟨by simp [readEvery], Or.inl rfl⟩) _

end Demo

end TadDftd4
