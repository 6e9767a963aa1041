import Verif.Props.C63
import Verif.Lemmas.RoundedAlpha

/-!
# C63: reference C6 coefficients

Reference C6 coefficients are computed from the tables: polarizabilities of references minus those of
secondary systems, and Casimir-Polder integration. Their rounding errors are bounded here, so C6
coefficients and energies are accurate without an assumption on the reference C6 coefficients.
-/

set_option linter.unusedSimpArgs false

open scoped Classical

namespace TadDftd4

open Tensor Rounded

/-- Casimir-Polder integral of two reference polarizabilities. -/
noncomputable def Spec.refC6 (C : Spec.C6Settings) (Z Z' a b : ℕ) : ℝ :=
  3 / Real.pi * ∑ ω ∈ Finset.range nfreq, C.quad ω * (Spec.alphaRef C Z a ω * Spec.alphaRef C Z' b ω)

/-- Number of roundings in a reference C6 coefficient; for `c`, `H1`, `H2`, `d` see `AlphaInput.Good`. -/
def Spec.refC6Roundings (c H1 H2 d : ℕ) : ℕ :=
  let scale := 2 * (16 * c + 7) * H1 + 1
  let zeta := 2 * (scale + 2) * H2 + 1
  let alpha := 4 * (zeta + 7) * d + 2
  2 * alpha + 28

/-- What a machine starts from for the reference polarizabilities of element `Z`. -/
noncomputable def elementInput (env : Env) (T : Tables) (R : RefCfg) (Z : ℕ) : AlphaInput where
  T := T
  ga := R.ga
  gc := R.gc
  refsq := refsqAt T R.rq
  ε := env.eps
  Z := Z

/-- `rc` can be computed for the reference C6 coefficients of two elements. -/
def Spec.MachineRefC6 (env : Env) (T : Tables) (R : RefCfg) (Z Z' : ℕ) (u : ℝ) (rc : ℕ → ℕ → ℝ) : Prop :=
  ∀ a < nref, ∀ b < nref, ∃ o,
    (Rounded.refC6 o (elementInput env T R Z) (elementInput env T R Z') a b).Rounds u (rc a b)

/-- `z` can be computed for the C6 coefficient of two atoms, beginning with the reference C6 coefficients;
compare `Spec.MachineC6`. -/
structure Spec.MachineC6Full (env : Env) (T : Tables) (R : RefCfg) (A A' : Spec.AtomData) (u v : ℝ)
    (kn kq kw : ℕ) (z : ℝ) : Prop where
  run : ∃ (rc : ℕ → ℕ → ℝ) (g h : ℕ → ℝ), Spec.MachineRefC6 env T R A.Z A'.Z u rc ∧
    (∀ r < nref, ((atomInput env T R A A'.Z kn kq kw).quot r).Rounds v (g r)) ∧
    (∀ r < nref, ((atomInput env T R A' A.Z kn kq kw).quot r).Rounds v (h r)) ∧
    (c6From rc 0 (atomInput env T R A A'.Z kn kq kw)
      (atomInput env T R A' A.Z kn kq kw) (fun r => .inp (g r) 0) (fun r => .inp (h r) 0)).Rounds u z

/-- A calculation of the energy of an atom, beginning with the tables; compare `Spec.MachineRun`. -/
structure Spec.MachineRunFull (env : Env) (T : Tables) (R : RefCfg) (P : Spec.D4Par) (p : Param)
    (cutoff : Cutoff) {n : ℕ} (M : Spec.Mol n) (u v : ℝ) (kn kq kw kQ : ℕ) (i : Fin n) (z : ℝ) :
    Prop where
  run : ∃ d c6 c6n : Fin n → Fin n → ℝ,
    (∀ j k, (cdistEx env.eps (M.pos j) (M.pos k)).Rounds u (d j k)) ∧
    (∀ j k, Spec.MachineC6Full env T R (M.atom j) (M.atom k) u v kn kq kw (c6 j k)) ∧
    (∀ j k, Spec.MachineC6Full env T R (M.neutral j) (M.neutral k) u v kn kq kw (c6n j k)) ∧
    (((machineInput env T R P p cutoff M 0 0 kQ).computed d c6 c6n).energy i).Rounds u z

section
variable {env : Env} {T : Tables} {R : RefCfg}

theorem elementInput_alpha (hT : T.Physical R.rq) (hgc : 0 < R.gc) {Z : ℕ} (hZ : Z < T.nZ) {c H1 H2 d : ℕ}
    (h : (elementInput env T R Z).Good c H1 H2 d) {r : ℕ} (hr : r < nref) (w : ℕ) :
    max 0 (T.refascale Z r * (T.refalpha Z r w - (elementInput env T R Z).second r w)) =
      alphaAt env T R.ga R.gc R.rq Z r w := by
  unfold alphaAt AlphaInput.second AlphaInput.scaling
  show max 0 (T.refascale Z r * (T.refalpha Z r w - T.refscount Z r * (T.secscale (T.refsys Z r) *
    T.secalpha (T.refsys Z r) w * if 0 < T.refsys Z r then _ else 0))) = _
  by_cases hs : 0 < T.refsys Z r
  · rw [if_pos hs, if_pos hs, zetaF_spec (mul_pos (hT.gamSec Z hZ r hr hs) hgc)
      (hT.zeffSec Z hZ r hr hs)]
    have hq := (h.charge r hr hs).1
    have hε := h.ε
    change 0 < refsqAt T R.rq Z r + T.zeff (T.refsys Z r) - env.eps at hq
    change 0 ≤ env.eps at hε
    unfold Spec.zeta
    rw [if_neg (by rintro (h1 | h1) <;> linarith)]
    rfl
  · rw [if_neg hs, if_neg hs]

theorem elementInput_val (hT : T.Physical R.rq) (hgc : 0 < R.gc) {Z Z' : ℕ} (hZ : Z < T.nZ)
    (hZ' : Z' < T.nZ) {c H1 H2 d : ℕ} (h : (elementInput env T R Z).Good c H1 H2 d)
    (h' : (elementInput env T R Z').Good c H1 H2 d) (o : Fin 3) {a b : ℕ} (ha : a < nref) (hb : b < nref) :
    (Rounded.refC6 o (elementInput env T R Z) (elementInput env T R Z') a b).val =
      rc6At env T R.ga R.gc R.rq Z Z' a b := by
  rw [refC6_val h h' o ha hb]
  unfold rc6At
  congr 1
  refine Finset.sum_congr rfl fun w _ => ?_
  rw [← elementInput_alpha hT hgc hZ h ha, ← elementInput_alpha hT hgc hZ' h' hb]
  rfl

theorem rc6At_spec (hT : T.Physical R.rq) (hgc : 0 < R.gc) {Z Z' : ℕ} (hZ : Z < T.nZ)
    (hZ' : Z' < T.nZ) {a b : ℕ} (ha : a < nref) (hb : b < nref) :
    rc6At env T R.ga R.gc R.rq Z Z' a b = Spec.refC6 (R.spec T env.eps) Z Z' a b := by
  unfold rc6At Spec.refC6 thopi
  congr 1
  refine Finset.sum_congr rfl fun w _ => ?_
  rw [alphaAt_spec hT hgc hZ ha, alphaAt_spec hT hgc hZ' hb]
  rfl

theorem machineRefC6_near (hT : T.Physical R.rq) (hgc : 0 < R.gc) {Z Z' : ℕ} (hZ : Z < T.nZ)
    (hZ' : Z' < T.nZ) {u : ℝ} {c H1 H2 d : ℕ} (hu : 0 ≤ u) (hu1 : u < 1) (h1 : 1 ≤ H1) (h2 : 1 ≤ H2)
    (hd : 1 ≤ d) (hK : Spec.refC6Roundings c H1 H2 d * u ≤ 1 / 2)
    (h : (elementInput env T R Z).Good c H1 H2 d) (h' : (elementInput env T R Z').Good c H1 H2 d)
    {rc : ℕ → ℕ → ℝ} (hz : Spec.MachineRefC6 env T R Z Z' u rc) {a b : ℕ} (ha : a < nref) (hb : b < nref) :
    Near u (Spec.refC6Roundings c H1 H2 d) (rc6At env T R.ga R.gc R.rq Z Z' a b) (rc a b) := by
  obtain ⟨o, ho⟩ := hz a ha b hb
  have e : Spec.refC6Roundings c H1 H2 d = kRefC6 c H1 H2 d := by
    unfold Spec.refC6Roundings kRefC6 kAlpha kZeta kScale kDen
    ring_nf
  rw [e] at hK ⊢
  have hK' : kAlpha c H1 H2 d * u ≤ 1 / 2 := by
    refine le_trans (mul_le_mul_of_nonneg_right ?_ hu) hK
    exact_mod_cast (by unfold kRefC6; omega)
  have n := (rel_refC6 hu hu1 h h' h1 h2 hd hK' thopi_pos.le trapzWeights_nonneg o ha hb).2 _ ho
  rwa [elementInput_val hT hgc hZ hZ' h h' o ha hb] at n

/-- **C63.** Any machine computes the reference C6 coefficients of two elements from the tables with a
relative error of at most `2 K u`; the order of the products is not fixed. -/
theorem C63_refc6 (hT : T.Physical R.rq) (hgc : 0 < R.gc) {Z Z' : ℕ} (hZ : Z < T.nZ)
    (hZ' : Z' < T.nZ) {u : ℝ} {c H1 H2 d : ℕ} (hu : 0 ≤ u) (hu1 : u < 1) (h1 : 1 ≤ H1) (h2 : 1 ≤ H2)
    (hd : 1 ≤ d) (hK : Spec.refC6Roundings c H1 H2 d * u ≤ 1 / 2)
    (h : (elementInput env T R Z).Good c H1 H2 d) (h' : (elementInput env T R Z').Good c H1 H2 d)
    {rc : ℕ → ℕ → ℝ} (hz : Spec.MachineRefC6 env T R Z Z' u rc) {a b : ℕ} (ha : a < nref) (hb : b < nref) :
    |rc a b - Spec.refC6 (R.spec T env.eps) Z Z' a b| ≤ 2 * Spec.refC6Roundings c H1 H2 d * u *
      Spec.refC6 (R.spec T env.eps) Z Z' a b := by
  have n := machineRefC6_near hT hgc hZ hZ' hu hu1 h1 h2 hd hK h h' hz ha hb
  have h0 := rc6At_nonneg (env := env) (T := T) R.ga R.gc R.rq Z Z' a b
  rw [← rc6At_spec hT hgc hZ hZ' ha hb]
  exact ((n.dev hu hu1 h0).2).trans (mul_le_mul_of_nonneg_right (inv_pow_le hu hu1 hK) h0)

theorem MachineC6Full.toMachine (hT : T.Physical R.rq) (hgc : 0 < R.gc) {A A' : Spec.AtomData}
    (hA : A.Z < T.nZ) (hA' : A'.Z < T.nZ) {u v : ℝ} {c H1 H2 d : ℕ} (hu : 0 ≤ u) (hu1 : u < 1)
    (h1 : 1 ≤ H1) (h2 : 1 ≤ H2) (hd : 1 ≤ d) (hK : Spec.refC6Roundings c H1 H2 d * u ≤ 1 / 2)
    (h : (elementInput env T R A.Z).Good c H1 H2 d) (h' : (elementInput env T R A'.Z).Good c H1 H2 d)
    {kn kq kw : ℕ} {z : ℝ} (hz : Spec.MachineC6Full env T R A A' u v kn kq kw z) :
    Spec.MachineC6 env T R A A' u v (Spec.refC6Roundings c H1 H2 d) kn kq kw z := by
  obtain ⟨rc, g, g', hr, hg, hg', hz⟩ := hz.run
  exact ⟨g, g', hg, hg', c6From_relaxes_ref _ _ (fun a ha b hb =>
    machineRefC6_near hT hgc hA hA' hu hu1 h1 h2 hd hK h h' hr ha hb) z hz⟩

/-- **C63.** C6 coefficients, computed by any machine from the tables, coordination numbers and charges. -/
theorem C63_c6_tables (hfl : env.fl = id) (hT : T.Physical R.rq) (hgc : 0 < R.gc)
    {A A' : Spec.AtomData} (hA : A.Z < T.nZ) (hA' : A'.Z < T.nZ) {kn kq kw : ℕ} {u v : ℝ} {f : ℕ}
    {N E W c H1 H2 c' H1' H2' d G : ℕ} (hv : 0 ≤ v) (hu1 : u < 1) (hf : 1 ≤ f) (hfv : f * v = u)
    (hN : 1 ≤ N) (hc : 1 ≤ c) (h1 : 1 ≤ H1) (h2 : 1 ≤ H2) (h1' : 1 ≤ H1') (h2' : 1 ≤ H2') (hd : 1 ≤ d)
    (hG : Spec.gaussRoundings kn kw N E W ≤ G * f)
    (hK : Spec.c6Roundings (Spec.refC6Roundings c' H1' H2' d) kq G c H1 H2 * u ≤ 1 / 2)
    (h : (atomInput env T R A A'.Z kn kq kw).Good v N E W c H1 H2)
    (h' : (atomInput env T R A' A.Z kn kq kw).Good v N E W c H1 H2)
    (hr : (elementInput env T R A.Z).Good c' H1' H2' d)
    (hr' : (elementInput env T R A'.Z).Good c' H1' H2' d) {z : ℝ}
    (hz : Spec.MachineC6Full env T R A A' u v kn kq kw z) :
    |z - Spec.c6 (R.spec T env.eps) A A'| ≤
      2 * Spec.c6Roundings (Spec.refC6Roundings c' H1' H2' d) kq G c H1 H2 * u *
      Spec.c6 (R.spec T env.eps) A A' := by
  have hu : 0 ≤ u := by rw [← hfv]; positivity
  refine C63_c6 hfl hT hgc hA hA' hv hu1 hf hfv hN hc h1 h2 hG hK h h'
    (MachineC6Full.toMachine hT hgc hA hA' hu hu1 h1' h2' hd ?_ hr hr' hz)
  refine le_trans (mul_le_mul_of_nonneg_right ?_ hu) hK
  exact_mod_cast (by unfold Spec.c6Roundings; dsimp only; omega)

end

section
variable {env : Env} {T : Tables} {ext : Ext} {numbers : Tensor ℕ} {positions charge : Tensor ℝ}
  {p : Param} {o : DftOpts} {n : ℕ} {B : Shape} {R : RefCfg} {cn : Spec.CN} {eeq : Spec.EEQ}
  {P : Spec.D4Par}

/-- **C63.** Energies, computed by any machine from the coordinates and the tables; only coordination
numbers, charges, exponents and `r4r2` are known up to a number of roundings. -/
theorem C63_energy_tables (h : Call env T ext numbers positions charge p o n B R cn eeq P)
    (hfl : env.fl = id) (hT : T.Physical R.rq) (hgc : 0 < R.gc) :
    ∃ e, dftd4 env T ext numbers positions charge p o = .ok e ∧
      ∀ (u v : ℝ) (f m kn kq kw kQ q L N E W c H1 H2 c' H1' H2' d G : ℕ), 0 ≤ v → 1 ≤ f → f * v = u →
      10 * u ≤ 1 → 2 * m * u ≤ 1 → 1 ≤ N → 1 ≤ c → 1 ≤ H1 → 1 ≤ H2 → 1 ≤ H1' → 1 ≤ H2' → 1 ≤ d →
      Spec.gaussRoundings kn kw N E W ≤ G * f →
      let K := Spec.roundings n (m + 1)
        (Spec.c6Roundings (Spec.refC6Roundings c' H1' H2' d) kq G c H1 H2) kQ q L
      K * u ≤ 1 / 2 → ∀ b, InB B b →
        let S := d4Computed env T R P (o.opts.cutoff.getD {})
        let M := system T cn eeq numbers positions charge o.opts n b
        Spec.Roundable u (m + 1) q L S P M → Spec.MachineSystem env T R M v m N E W c H1 H2 kn kq kw →
        (∀ i, (elementInput env T R (M.Z i)).Good c' H1' H2' d) →
        ∀ (i : Fin n) (z : ℝ),
          Spec.MachineRunFull env T R P p (o.opts.cutoff.getD {}) M u v kn kq kw kQ i z →
          |z - e.get (i.1 :: b)| ≤ 2 * K * u * (|Spec.e2 S M M.atom i| + Spec.abs3 S M i) := by
  obtain ⟨e, h1, h2⟩ := C63_energy h hfl hT hgc
  refine ⟨e, h1, ?_⟩
  intro u v f m kn kq kw kQ q L N E W c H1 H2 c' H1' H2' d G hv hf hfv hu10 hm hN hc hH1 hH2 hH1' hH2' hd hG
    K hK b hb S M hR hM hr i z hz
  have hu : 0 ≤ u := by rw [← hfv]; positivity
  have hu1 : u < 1 := by linarith
  have hKr : Spec.refC6Roundings c' H1' H2' d * u ≤ 1 / 2 := by
    refine le_trans (mul_le_mul_of_nonneg_right ?_ hu) hK
    simp only [K, Spec.roundings, Spec.c6Roundings]
    exact_mod_cast (by omega)
  have hZ : ∀ j, (M.Z j) < T.nZ := fun j => h.args.Z_lt hb j
  obtain ⟨dd, c6, c6n, hd', h6, h6n, hz⟩ := hz.run
  exact h2 u v f m (Spec.refC6Roundings c' H1' H2' d) kn kq kw kQ q L N E W c H1 H2 G hv hf hfv hu10 hm hN hc
    hH1 hH2 hG hK b hb hR hM i z ⟨dd, c6, c6n, hd',
      fun j k => MachineC6Full.toMachine hT hgc (hZ j) (hZ k) hu hu1 hH1' hH2' hd hKr (hr j) (hr k) (h6 j k),
      fun j k => MachineC6Full.toMachine hT hgc (A := M.neutral j) (A' := M.neutral k) (hZ j) (hZ k) hu hu1
        hH1' hH2' hd hKr (hr j) (hr k) (h6n j k), hz⟩

end

/-! ## Cases -/

namespace Demo

theorem check_water_ref : ([1, 8] : List ℕ).all (fun Z => (List.range 7).all fun r =>
    Nat.ble (at2 Data.refsys Z r) 1 && decide (0 ≤ at2 Data.eeqH Z r) &&
    (List.range 23).all fun w => Nat.ble (51 * (at2 Data.refscount Z r * at2 Data.secscale (at2 Data.refsys Z r) 0 *
      at2 Data.secalpha (at2 Data.refsys Z r) w)) (30 * at3 Data.refalpha Z r w * 10 ^ 8)) = true := by
  decide +kernel

theorem water_ref {Z r : ℕ} (hZ : Z = 1 ∨ Z = 8) (hr : r < nref) :
    T.refsys Z r ≤ 1 ∧ 0 ≤ refsqAt T "eeq" Z r ∧ ∀ w < nfreq,
      51 * (T.refscount Z r * (T.secscale (T.refsys Z r) * T.secalpha (T.refsys Z r) w)) ≤
        30 * T.refalpha Z r w := by
  have h := check_water_ref
  rw [List.all_eq_true] at h
  have h1 := List.all_eq_true.1 (h Z (by simpa using hZ)) r (List.mem_range.2 hr)
  simp only [Bool.and_eq_true, Nat.ble_eq, decide_eq_true_eq, List.all_eq_true, List.mem_range] at h1
  obtain ⟨⟨a, b⟩, c⟩ := h1
  have b' : (0 : ℝ) ≤ ((at2 Data.eeqH Z r : ℤ) : ℝ) := by exact_mod_cast b
  refine ⟨a, ?_, fun w hw => ?_⟩
  · show 0 ≤ if "eeq" = "eeq" then ((at2 Data.eeqH Z r : ℤ) : ℝ) / 10 ^ 14 else _
    rw [if_pos rfl]
    positivity
  · have c' : (51 * ((at2 Data.refscount Z r : ℕ) * (at2 Data.secscale (at2 Data.refsys Z r) 0 : ℕ) *
      (at2 Data.secalpha (at2 Data.refsys Z r) w : ℕ)) : ℝ) ≤ 30 * (at3 Data.refalpha Z r w : ℕ) * 10 ^ 8 := by
      exact_mod_cast c w hw
    show (51 : ℝ) * (((at2 Data.refscount Z r : ℕ) : ℝ) / 10 *
      (((at2 Data.secscale (at2 Data.refsys Z r) 0 : ℕ) : ℝ) / 10 ^ 7 *
        (((at2 Data.secalpha (at2 Data.refsys Z r) w : ℕ) : ℝ) / 10 ^ 7))) ≤
          30 * (((at3 Data.refalpha Z r w : ℕ) : ℝ) / 10 ^ 7)
    have e : (51 : ℝ) * (((at2 Data.refscount Z r : ℕ) : ℝ) / 10 *
      (((at2 Data.secscale (at2 Data.refsys Z r) 0 : ℕ) : ℝ) / 10 ^ 7 *
        (((at2 Data.secalpha (at2 Data.refsys Z r) w : ℕ) : ℝ) / 10 ^ 7))) =
      (51 * ((at2 Data.refscount Z r : ℕ) * (at2 Data.secscale (at2 Data.refsys Z r) 0 : ℕ) *
      (at2 Data.secalpha (at2 Data.refsys Z r) w : ℕ)) : ℝ) / (10 * (10 ^ 7 * 10 ^ 7)) := by ring
    rw [e, div_le_iff₀ (by positivity)]
    refine c'.trans (le_of_eq ?_)
    ring

/-- Hydrogen and oxygen: their secondary system is hydrogen, with charges that are not negative. -/
theorem water_alpha {D : Env} (hD : D.eps ≤ 1 / 2 ^ 23) {Z : ℕ} (hZ : Z = 1 ∨ Z = 8) :
    (elementInput D T .d4 Z).Good 2 3 12 4 := by
  have heps : D.eps ≤ 1 / 4 := hD.trans (by norm_num)
  have hn := D.eps_pos
  have one : ∀ r < nref, 0 < T.refsys Z r → T.zeff (T.refsys Z r) = 1 := by
    intro r hr hs
    have := (water_ref hZ hr).1
    rw [show T.refsys Z r = 1 by omega]
    exact Nat.cast_one
  have ha : ∀ r w, 0 ≤ T.refalpha Z r w := fun r w => by
    show (0 : ℝ) ≤ ((at3 Data.refalpha Z r w : ℕ) : ℝ) / 10 ^ 7
    positivity
  have hc : ∀ r, 0 ≤ T.refscount Z r := fun r => by
    show (0 : ℝ) ≤ ((at2 Data.refscount Z r : ℕ) : ℝ) / 10
    positivity
  have hs : ∀ s, 0 ≤ T.secscale s := fun s => by
    show (0 : ℝ) ≤ ((at2 Data.secscale s 0 : ℕ) : ℝ) / 10 ^ 7
    positivity
  have hsa : ∀ s w, 0 ≤ T.secalpha s w := fun s w => by
    show (0 : ℝ) ≤ ((at2 Data.secalpha s w : ℕ) : ℝ) / 10 ^ 7
    positivity
  refine ⟨?_, ?_, D.eps_pos.le, fun r _ w _ => ha r w, fun r _ => hc r, ?_, fun r _ => hs _,
    fun r _ w _ => hsa _ _, ?_, ?_, ?_, ?_, ?_, ?_⟩
  · show (0 : ℝ) ≤ 3
    norm_num
  · show (0 : ℝ) ≤ 2
    norm_num
  · intro r _
    show (0 : ℝ) ≤ ((at2 Data.refascale Z r : ℕ) : ℝ) / 10 ^ 14
    positivity
  · intro _ _ _
    show (0 : ℝ) ≤ 1 / 2
    norm_num
  · intro r hr h
    exact (one r hr h).symm ▸ zero_le_one
  · intro r hr h
    have e := one r hr h
    have q := (water_ref hZ hr).2.1
    show 0 < refsqAt T "eeq" Z r + T.zeff (T.refsys Z r) - D.eps ∧
      |refsqAt T "eeq" Z r| + T.zeff (T.refsys Z r) + D.eps ≤
        (2 : ℕ) * (refsqAt T "eeq" Z r + T.zeff (T.refsys Z r) - D.eps)
    rw [e, abs_of_nonneg q]
    push_cast
    constructor <;> linarith
  · intro r hr h
    have e := one r hr h
    have q := (water_ref hZ hr).2.1
    show (1 / 2 : ℝ) * 2 * (1 + T.zeff (T.refsys Z r) /
      (refsqAt T "eeq" Z r + T.zeff (T.refsys Z r) - D.eps)) ≤ (3 : ℕ)
    rw [e]
    have : 1 / (refsqAt T "eeq" Z r + 1 - D.eps) ≤ 2 := by
      rw [div_le_iff₀ (by linarith)]
      linarith
    push_cast
    linarith
  · intro r hr h
    have e := one r hr h
    have q := (water_ref hZ hr).2.1
    show (3 : ℝ) * (1 + Real.exp ((1 / 2 : ℝ) * 2 * (1 - T.zeff (T.refsys Z r) /
      (refsqAt T "eeq" Z r + T.zeff (T.refsys Z r) - D.eps)))) ≤ (12 : ℕ)
    rw [e]
    have : 0 ≤ 1 / (refsqAt T "eeq" Z r + 1 - D.eps) := div_nonneg zero_le_one (by linarith)
    have := Real.exp_le_exp.2 (show (1 / 2 : ℝ) * 2 * (1 - 1 / (refsqAt T "eeq" Z r + 1 - D.eps)) ≤ 1 by
      linarith)
    have := Real.exp_one_lt_d9
    push_cast
    linarith
  · intro r hr w hw
    obtain ⟨-, q, h3⟩ := water_ref hZ hr
    have h3 := h3 w hw
    have z1 : (elementInput D T .d4 Z).scaling r ≤ 51 / 50 := by
      unfold AlphaInput.scaling
      dsimp only
      split_ifs with hs'
      · have e := one r hr hs'
        show Real.exp ((3 : ℝ) * (1 - Real.exp ((1 / 2 : ℝ) * 2 * (1 - T.zeff (T.refsys Z r) /
          (refsqAt T "eeq" Z r + T.zeff (T.refsys Z r) - D.eps))))) ≤ 51 / 50
        rw [e]
        have h9 : D.eps ≤ 1 / 1000 := hD.trans (by norm_num)
        have d1 : 1 / (refsqAt T "eeq" Z r + 1 - D.eps) ≤ 1 + 2 * D.eps := by
          rw [div_le_iff₀ (by linarith)]
          nlinarith
        have d2 := Real.add_one_le_exp ((1 / 2 : ℝ) * 2 * (1 - 1 / (refsqAt T "eeq" Z r + 1 - D.eps)))
        have d3 : (3 : ℝ) * (1 - Real.exp ((1 / 2 : ℝ) * 2 *
          (1 - 1 / (refsqAt T "eeq" Z r + 1 - D.eps)))) ≤ 1 / 100 := by linarith
        refine (Real.exp_le_exp.2 d3).trans ?_
        have d4 := Real.add_one_le_exp (-(1 / 100 : ℝ))
        rw [Real.exp_neg] at d4
        have d5 := Real.exp_pos (1 / 100 : ℝ)
        rw [le_inv_comm₀ (by norm_num) d5] at d4
        exact d4.trans (by norm_num)
      · norm_num
    have z0 : 0 ≤ (elementInput D T .d4 Z).scaling r := by
      unfold AlphaInput.scaling
      dsimp only
      split_ifs
      · exact (Real.exp_pos _).le
      · exact le_rfl
    have p0 : 0 ≤ T.refscount Z r * (T.secscale (T.refsys Z r) * T.secalpha (T.refsys Z r) w) :=
      mul_nonneg (hc r) (mul_nonneg (hs _) (hsa _ _))
    have e : (elementInput D T .d4 Z).second r w = T.refscount Z r * (T.secscale (T.refsys Z r) *
        T.secalpha (T.refsys Z r) w) * (elementInput D T .d4 Z).scaling r := by
      show T.refscount Z r * (T.secscale (T.refsys Z r) * T.secalpha (T.refsys Z r) w * _) = _
      ring
    have h5 : 5 * (elementInput D T .d4 Z).second r w ≤ 3 * T.refalpha Z r w := by
      rw [e]
      nlinarith
    show T.refalpha Z r w + (elementInput D T .d4 Z).second r w ≤
      (4 : ℕ) * |T.refalpha Z r w - (elementInput D T .d4 Z).second r w|
    rw [abs_of_nonneg (by linarith [ha r w])]
    push_cast
    linarith

/-- Reference C6 coefficients of oxygen and hydrogen in double precision. -/
example {rc : ℕ → ℕ → ℝ} (hz : Spec.MachineRefC6 env T .d4 8 1 dbl rc) {a b : ℕ} (ha : a < nref)
    (hb : b < nref) : |rc a b - Spec.refC6 (RefCfg.d4.spec T env.eps) 8 1 a b| ≤
      5e-11 * Spec.refC6 (RefCfg.d4.spec T env.eps) 8 1 a b := by
  have := C63_refc6 (R := .d4) physical (by norm_num [RefCfg.d4]) (by show 8 < 104; norm_num)
    (by show 1 < 104; norm_num) (by norm_num [dbl]) (by norm_num [dbl]) (by norm_num) (by norm_num)
    (by norm_num) (by norm_num [Spec.refC6Roundings, dbl]) (water_alpha env_eps (Or.inr rfl))
    (water_alpha env_eps (Or.inl rfl)) hz ha hb
  refine this.trans (mul_le_mul_of_nonneg_right (by norm_num [Spec.refC6Roundings, dbl]) ?_)
  rw [← rc6At_spec physical (by norm_num [RefCfg.d4]) (by show 8 < 104; norm_num)
    (by show 1 < 104; norm_num) ha hb]
  exact rc6At_nonneg _ _ _ _ _ _ _

/-- Exact arithmetic is a calculation of them. -/
example : ∃ rc, Spec.MachineRefC6 env T .d4 8 1 dbl rc := by
  refine ⟨fun a b => (Rounded.refC6 0 (elementInput env T .d4 8) (elementInput env T .d4 1) a b).val,
    fun a ha b hb => ⟨0, Ex.Proper.exact (by norm_num [dbl]) (by norm_num [dbl]) ?_⟩⟩
  exact (water_alpha env_eps (Or.inr rfl)).refC6_proper (water_alpha env_eps (Or.inl rfl)) thopi_pos.le
    trapzWeights_nonneg 0 ha hb

/-- C6 coefficient of oxygen and hydrogen in water, double precision. -/
example {z : ℝ} (hz : Spec.MachineC6Full env T .d4 (waterMol.atom 0) (waterMol.atom 1) dbl dbl 1 1 1 z) :=
  C63_c6_tables (R := .d4) (N := 25) (E := 450) (W := 19) (c := 2) (H1 := 4) (H2 := 12) (G := 18053) (f := 1)
    (c' := 2) (H1' := 3) (H2' := 12) (d := 4)
    rfl physical (by norm_num [RefCfg.d4]) (A := waterMol.atom 0) (A' := waterMol.atom 1)
    (by show 8 < 104; norm_num) (by show 1 < 104; norm_num) (by norm_num [dbl])
    (by norm_num [dbl]) (by norm_num) (by rw [Nat.cast_one, one_mul]) (by norm_num) (by norm_num)
    (by norm_num) (by norm_num) (by norm_num) (by norm_num) (by norm_num) (by norm_num [Spec.gaussRoundings])
    (by norm_num [Spec.c6Roundings, Spec.refC6Roundings, dbl])
    ((water_system env_eps env_fmax (by norm_num [dbl]) 1 1).charged 0 1)
    ((water_system env_eps env_fmax (by norm_num [dbl]) 1 1).charged 1 0)
    (water_alpha env_eps (Or.inr rfl)) (water_alpha env_eps (Or.inl rfl)) hz

/-- Energies of water in double precision, from coordinates and tables. -/
example : ∃ e, dftd4 env T ext numbers positions charge param {} = .ok e ∧
    ∀ (i : Fin 3) (z : ℝ), Spec.MachineRunFull env T .d4 par param {} waterMol dbl dbl 1 1 1 1 i z →
      |z - e.get [i.1, 0]| ≤ 2e-10 * (|Spec.e2 (d4Computed env T .d4 par {}) waterMol waterMol.atom i| +
        Spec.abs3 (d4Computed env T .d4 par {}) waterMol i) := by
  obtain ⟨e, h1, h2⟩ := C63_energy_tables call rfl physical (by norm_num [RefCfg.d4])
  refine ⟨e, h1, fun i z hz => ?_⟩
  have := h2 dbl dbl 1 29 1 1 1 1 6 26 25 450 19 2 4 12 2 3 12 4 18053 (by norm_num [dbl]) le_rfl
    (by rw [Nat.cast_one, one_mul]) (by norm_num [dbl]) (by norm_num [dbl]) (by norm_num) (by norm_num)
    (by norm_num) (by norm_num) (by norm_num) (by norm_num) (by norm_num) (by norm_num [Spec.gaussRoundings])
    (by norm_num [Spec.roundings, Spec.c6Roundings, Spec.refC6Roundings, dbl]) [0] (by simp [InB]) water_double
    (water_system env_eps env_fmax (by norm_num [dbl]) 1 1) (fun i => water_alpha env_eps (water_Z i)) i z hz
  refine this.trans (mul_le_mul_of_nonneg_right
    (by norm_num [Spec.roundings, Spec.c6Roundings, Spec.refC6Roundings, dbl]) ?_)
  exact nonneg_of_mul_nonneg_right ((abs_nonneg _).trans this)
    (by norm_num [Spec.roundings, Spec.c6Roundings, Spec.refC6Roundings, dbl])

end Demo
end TadDftd4
