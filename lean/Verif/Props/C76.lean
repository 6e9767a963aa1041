import Verif.Props.C63
import Verif.Props.C02
import Verif.Props.C03
import Verif.Props.C04
import Verif.Props.C74

/-!
# C76: results agree up to rounding

In exact arithmetic energies have the symmetries of C02 to C04. Computed energies have them up to rounding
only, and two machines (CPU and GPU, say) need not agree either, since they may add in different orders. The
difference of two computed energies is at most `4 K u` times the sum of the absolute values of the contributions, with
`K` as in C63:

* `C76_machines`: two calculations of the same system;
* `C76_relabelling`: atoms in different order;
* `C76_rigid_motion`: rotations, reflections and translations;
* `C76_padding`: a system alone and in a batch, with and without padding.
-/

set_option linter.unusedSimpArgs false

open scoped Classical

namespace TadDftd4

open Tensor

/-- Precision of a machine and of its input, as in `C63_energy`: relative errors `u` of the data type and `v`
of double precision, `f * v = u`; roundings `kr`, `kn`, `kq`, `kw`, `kQ` of reference C6, coordination
numbers, charges, exponents and `r4r2`; the others bound numbers that enter exponentials and powers. -/
structure Spec.Rounding where
  u : ℝ
  v : ℝ
  (f m kr kn kq kw kQ q L N E W c H1 H2 G : ℕ)

namespace Spec.Rounding
variable (ρ : Spec.Rounding)

/-- The number of roundings in an energy. -/
def K (n : ℕ) : ℕ :=
  Spec.roundings n (ρ.m + 1) (Spec.c6Roundings ρ.kr ρ.kq ρ.G ρ.c ρ.H1 ρ.H2) ρ.kQ ρ.q ρ.L

/-- Assumptions on the numbers for systems of `n` atoms. -/
structure Fits (n : ℕ) : Prop where
  v : 0 ≤ ρ.v
  f : 1 ≤ ρ.f
  fv : ρ.f * ρ.v = ρ.u
  u : 10 * ρ.u ≤ 1
  m : 2 * ρ.m * ρ.u ≤ 1
  N : 1 ≤ ρ.N
  c : 1 ≤ ρ.c
  H1 : 1 ≤ ρ.H1
  H2 : 1 ≤ ρ.H2
  G : Spec.gaussRoundings ρ.kn ρ.kw ρ.N ρ.E ρ.W ≤ ρ.G * ρ.f
  K : ρ.K n * ρ.u ≤ 1 / 2

variable (env : Env) (T : Tables) (R : RefCfg) (P : Spec.D4Par) (p : Param) (cutoff : Cutoff) {n : ℕ}
  (M : Spec.Mol n)

/-- Assumptions on a system. -/
structure Suits : Prop where
  round : Spec.Roundable ρ.u (ρ.m + 1) ρ.q ρ.L (d4Computed env T R P cutoff) P M
  machine : Spec.MachineSystem env T R M ρ.v ρ.m ρ.N ρ.E ρ.W ρ.c ρ.H1 ρ.H2 ρ.kn ρ.kq ρ.kw

/-- `z` may be computed for the energy of atom `i`. -/
def Run (i : Fin n) (z : ℝ) : Prop :=
  Spec.MachineRun env T R P p cutoff M ρ.u ρ.v ρ.kr ρ.kn ρ.kq ρ.kw ρ.kQ i z

end Spec.Rounding

/-- Sum of the absolute values of the contributions to the energy of an atom. -/
noncomputable def Spec.size {n : ℕ} (S : Spec.Settings) (M : Spec.Mol n) (i : Fin n) : ℝ :=
  |Spec.e2 S M M.atom i| + Spec.abs3 S M i

namespace Spec
variable {m n : ℕ} {S : Settings} {M : Mol n}

theorem abs3_comap {f : Fin m → Fin n} (hf : Function.Injective f)
    (h : ∀ j, j ∉ Set.range f → M.Z j = 0) (i : Fin m) :
    abs3 S (M.comap f) i = abs3 S M (f i) := by
  unfold abs3
  rw [sum_comap hf]
  · congr 1
    refine Finset.sum_congr rfl fun j _ => ?_
    rw [sum_comap hf]
    · refine Finset.sum_congr rfl fun k _ => ?_
      refine if_congr ?_ rfl rfl
      simp [Mol.comap, hf.eq_iff, withinCut3, Mol.r]
    · intro k hk
      simp [h k hk]
  · intro j hj
    simp [h j hj]

theorem size_comap {f : Fin m → Fin n} (hf : Function.Injective f)
    (h : ∀ j, j ∉ Set.range f → M.Z j = 0) (i : Fin m) :
    size S (M.comap f) i = size S M (f i) := by
  unfold size
  rw [abs3_comap hf h, ← e2_comap hf _ fun j hj => Or.inl (h j hj)]
  rfl

theorem size_congr_pos {M' : Mol n} (hZ : M.Z = M'.Z) (hc : M.cn = M'.cn) (hq : M.q = M'.q)
    (hQ : M.Q = M'.Q) (hv : M.rvdw = M'.rvdw)
    (hd : ∀ i j, dist (M.pos i) (M.pos j) = dist (M'.pos i) (M'.pos j)) (i : Fin n) :
    size S M i = size S M' i := by
  obtain ⟨Z, pos, c, q, Q, rv⟩ := M
  obtain ⟨Z', pos', c', q', Q', rv'⟩ := M'
  simp only at hZ hc hq hQ hv hd
  subst hZ hc hq hQ hv
  have hr : ∀ i j, Mol.r ⟨Z, pos, c, q, Q, rv⟩ S.ε i j = Mol.r ⟨Z, pos', c, q, Q, rv⟩ S.ε i j := by
    intro i j; simp only [Mol.r, hd]
  unfold size e2 abs3 pairTerm withinCut3 rad R0
  simp only [hr]
  rfl

variable {ρ : Rounding} {env : Env} {T : Tables} {R : RefCfg} {P : D4Par} {cutoff : Cutoff}

theorem Rounding.Suits.comap (h : ρ.Suits env T R P cutoff M) {f : Fin m → Fin n}
    (hf : Function.Injective f) : ρ.Suits env T R P cutoff (M.comap f) where
  round := { h.round with
    Q := fun i => h.round.Q (f i)
    clear := fun i j h1 h2 h3 => h.round.clear (f i) (f j) h1 h2 (hf.ne h3)
    power := fun i j k h1 h2 h3 h4 h5 h6 =>
      h.round.power (f i) (f j) (f k) h1 h2 h3 (hf.ne h4) (hf.ne h5) (hf.ne h6) }
  machine := ⟨fun i j => h.machine.charged (f i) (f j), fun i j => h.machine.neutral (f i) (f j),
    fun i j h1 h2 h3 => h.machine.near (f i) (f j) h1 h2 (hf.ne h3)⟩

theorem Rounding.Suits.congr_pos {M' : Mol n} (h : ρ.Suits env T R P cutoff M) (hZ : M.Z = M'.Z)
    (hc : M.cn = M'.cn) (hq : M.q = M'.q) (hQ : M.Q = M'.Q) (hv : M.rvdw = M'.rvdw)
    (hd : ∀ i j, dist (M.pos i) (M.pos j) = dist (M'.pos i) (M'.pos j))
    (hnear : ∀ i j, M'.Z i ≠ 0 → M'.Z j ≠ 0 → i ≠ j →
      10 * far3 (M'.pos i) (M'.pos j) ≤ ρ.m * sq3 (M'.pos i) (M'.pos j)) :
    ρ.Suits env T R P cutoff M' := by
  obtain ⟨Z, pos, c, q, Q, rv⟩ := M
  obtain ⟨Z', pos', c', q', Q', rv'⟩ := M'
  simp only at hZ hc hq hQ hv hd
  subst hZ hc hq hQ hv
  have hr : ∀ ε i j, Mol.r ⟨Z, pos', c, q, Q, rv⟩ ε i j = Mol.r ⟨Z, pos, c, q, Q, rv⟩ ε i j := by
    intro ε i j; simp only [Mol.r, hd]
  exact ⟨{ h.round with
    Q := h.round.Q
    clear := fun i j => by rw [hr]; exact h.round.clear i j
    power := fun i j k => by simp only [hr]; exact h.round.power i j k },
    ⟨h.machine.charged, h.machine.neutral, hnear⟩⟩

theorem Rounding.K_pos (ρ : Rounding) (n : ℕ) : 0 < ρ.K n := by
  unfold Rounding.K roundings
  omega

theorem Rounding.K_mono (ρ : Rounding) {m n : ℕ} (hm : m ≤ n) : ρ.K m ≤ ρ.K n := by
  unfold Rounding.K roundings
  have := Nat.pow_le_pow_left hm 2
  omega

theorem Rounding.Fits.mono {ρ : Rounding} {m n : ℕ} (h : ρ.Fits n) (hm : m ≤ n) : ρ.Fits m :=
  { h with
    K := by
      refine le_trans (mul_le_mul_of_nonneg_right ?_ ?_) h.K
      · exact_mod_cast ρ.K_mono hm
      · rw [← h.fv]
        exact mul_nonneg (Nat.cast_nonneg _) h.v }

end Spec

section
variable {env : Env} {T : Tables} {ext : Ext} {numbers numbers' : Tensor ℕ}
  {positions positions' charge charge' : Tensor ℝ}
  {p : Param} {o o' : DftOpts} {n m k : ℕ} {B B' : Shape} {R : RefCfg} {cn : Spec.CN} {eeq : Spec.EEQ}
  {P : Spec.D4Par} {ρ : Spec.Rounding}

/-- `C63_energy` for `Rounding`. -/
theorem Spec.Rounding.Fits.energy (hρ : ρ.Fits n)
    (h : Call env T ext numbers positions charge p o n B R cn eeq P)
    (hfl : env.fl = id) (hT : T.Physical R.rq) (hgc : 0 < R.gc) {b : Idx} (hb : InB B b) {e : Tensor ℝ}
    (he : dftd4 env T ext numbers positions charge p o = .ok e)
    (hs : ρ.Suits env T R P (o.opts.cutoff.getD {})
      (system T cn eeq numbers positions charge o.opts n b)) {i : Fin n} {z : ℝ}
    (hz : ρ.Run env T R P p (o.opts.cutoff.getD {})
      (system T cn eeq numbers positions charge o.opts n b) i z) :
    |z - e.get (i.1 :: b)| ≤ 2 * ρ.K n * ρ.u * Spec.size (d4Computed env T R P (o.opts.cutoff.getD {}))
      (system T cn eeq numbers positions charge o.opts n b) i := by
  obtain ⟨e', h1, h2⟩ := C63_energy h hfl hT hgc
  rw [he] at h1
  cases h1
  exact h2 ρ.u ρ.v ρ.f ρ.m ρ.kr ρ.kn ρ.kq ρ.kw ρ.kQ ρ.q ρ.L ρ.N ρ.E ρ.W ρ.c ρ.H1 ρ.H2 ρ.G hρ.v hρ.f hρ.fv
    hρ.u hρ.m hρ.N hρ.c hρ.H1 hρ.H2 hρ.G hρ.K b hb hs.round hs.machine i z hz

private theorem near_near {a b c K u s : ℝ} (h1 : |a - c| ≤ 2 * K * u * s) (h2 : |b - c| ≤ 2 * K * u * s) :
    |a - b| ≤ 4 * K * u * s := by
  have := abs_sub_le a c b
  rw [abs_sub_comm c b] at this
  linarith

/-- **C76.** Two machines of the same precision, whatever they round and in whatever order they add. -/
theorem C76_machines (hρ : ρ.Fits n) (h : Call env T ext numbers positions charge p o n B R cn eeq P)
    (hfl : env.fl = id) (hT : T.Physical R.rq) (hgc : 0 < R.gc) {b : Idx} (hb : InB B b) :
    let S := d4Computed env T R P (o.opts.cutoff.getD {})
    let M := system T cn eeq numbers positions charge o.opts n b
    ρ.Suits env T R P (o.opts.cutoff.getD {}) M → ∀ (i : Fin n) (z z' : ℝ),
      ρ.Run env T R P p (o.opts.cutoff.getD {}) M i z → ρ.Run env T R P p (o.opts.cutoff.getD {}) M i z' →
      |z' - z| ≤ 4 * ρ.K n * ρ.u * Spec.size S M i := by
  intro S M hs i z z' hz hz'
  obtain ⟨e, he, -⟩ := h.eval
  exact near_near (hρ.energy h hfl hT hgc hb he hs hz') (hρ.energy h hfl hT hgc hb he hs hz)

/-- **C76.** Atoms in different order. -/
theorem C76_relabelling (hρ : ρ.Fits n) (h : Call env T ext numbers positions charge p o n B R cn eeq P)
    (h' : Call env T ext numbers' positions' charge' p o' n B R cn eeq P)
    (hfl : env.fl = id) (hT : T.Physical R.rq) (hgc : 0 < R.gc)
    (hcn : cn.Equivariant) (heeq : eeq.Equivariant) (hcut : o'.opts.cutoff = o.opts.cutoff)
    {b : Idx} (hb : InB B b) {π : Equiv.Perm (Fin n)}
    (hπ : Relabelled π b numbers numbers' positions positions' charge charge' o.opts o'.opts) :
    let S := d4Computed env T R P (o.opts.cutoff.getD {})
    let M := system T cn eeq numbers positions charge o.opts n b
    let M' := system T cn eeq numbers' positions' charge' o'.opts n b
    ρ.Suits env T R P (o.opts.cutoff.getD {}) M → ∀ (i : Fin n) (z z' : ℝ),
      ρ.Run env T R P p (o.opts.cutoff.getD {}) M (π i) z →
      ρ.Run env T R P p (o.opts.cutoff.getD {}) M' i z' →
      |z' - z| ≤ 4 * ρ.K n * ρ.u * Spec.size S M (π i) := by
  intro S M M' hs i z z' hz hz'
  obtain ⟨e, e', he, he', hee⟩ := C02_relabelling h h' hcn heeq hcut
  have hM : M' = M.comap π := system_relabelled hcn heeq hπ
  have hs' : ρ.Suits env T R P (o'.opts.cutoff.getD {}) M' := by
    rw [hM, hcut]
    exact hs.comap π.injective
  rw [← hcut] at hz'
  have b1 := hρ.energy h hfl hT hgc hb he hs hz
  have b2 := hρ.energy h' hfl hT hgc hb he' hs' hz'
  rw [(hee b hb π hπ).1 i] at b2
  have e1 : Spec.size (d4Computed env T R P (o'.opts.cutoff.getD {})) M' i = Spec.size S M (π i) := by
    rw [hM, hcut]
    exact Spec.size_comap π.injective (fun j hj => absurd (π.surjective j) hj) i
  rw [← e1] at b1 ⊢
  exact near_near b2 b1

/-- **C76.** Rotations, reflections and translations, as long as the atoms remain near the origin. -/
theorem C76_rigid_motion (hρ : ρ.Fits n)
    (h : Call env T ext numbers positions charge p o n B R cn eeq P)
    (hpos : positions'.Ok (3 :: n :: B))
    (hfl : env.fl = id) (hT : T.Physical R.rq) (hgc : 0 < R.gc)
    (hcn : cn.Invariant) (heeq : eeq.Invariant) {b : Idx} (hb : InB B b) (g : Spec.E3 ≃ᵢ Spec.E3)
    (hg : ∀ i, coords positions' n b i = g (coords positions n b i)) :
    let S := d4Computed env T R P (o.opts.cutoff.getD {})
    let M := system T cn eeq numbers positions charge o.opts n b
    let M' := system T cn eeq numbers positions' charge o.opts n b
    (∀ i j, M'.Z i ≠ 0 → M'.Z j ≠ 0 → i ≠ j →
      10 * Spec.far3 (M'.pos i) (M'.pos j) ≤ ρ.m * Spec.sq3 (M'.pos i) (M'.pos j)) →
    ρ.Suits env T R P (o.opts.cutoff.getD {}) M → ∀ (i : Fin n) (z z' : ℝ),
      ρ.Run env T R P p (o.opts.cutoff.getD {}) M i z →
      ρ.Run env T R P p (o.opts.cutoff.getD {}) M' i z' →
      |z' - z| ≤ 4 * ρ.K n * ρ.u * Spec.size S M i := by
  intro S M M' hnear hs i z z' hz hz'
  have h' : Call env T ext numbers positions' charge p o n B R cn eeq P :=
    { h with args := { h.args with pos := hpos } }
  obtain ⟨e, e', he, he', hee⟩ := C03_isometry h hpos hcn heeq
  have hc : coords positions' n b = fun k => g (coords positions n b k) := funext hg
  have e1 : M.cn = M'.cn := by
    funext j
    show cn n _ (coords positions n b) j = cn n _ (coords positions' n b) j
    rw [hc]; exact (hcn n g _ _ j).symm
  have e2 : M.q = M'.q := by
    funext j
    show (match o.opts.q with
      | some q => q.get (j.1 :: b)
      | none => eeq n _ _ (coords positions n b) _ j) = (match o.opts.q with
      | some q => q.get (j.1 :: b)
      | none => eeq n _ _ (coords positions' n b) _ j)
    split
    · rfl
    · rw [hc]; exact (heeq n g _ _ _ _ j).symm
  have e3 : ∀ i j, dist (M.pos i) (M.pos j) = dist (M'.pos i) (M'.pos j) := by
    intro i j
    show dist (coords positions n b i) (coords positions n b j) =
      dist (coords positions' n b i) (coords positions' n b j)
    rw [hc]; exact (g.dist_eq _ _).symm
  have hs' := hs.congr_pos (M' := M') rfl e1 e2 rfl rfl e3 hnear
  have b1 := hρ.energy h hfl hT hgc hb he hs hz
  have b2 := hρ.energy h' hfl hT hgc hb he' hs' hz'
  rw [hee b hb g hg i] at b2
  have e4 : Spec.size S M i = Spec.size S M' i :=
    Spec.size_congr_pos (M := M) (M' := M') rfl e1 e2 rfl rfl e3 i
  rw [e4]
  exact near_near b2 (by rw [← e4]; exact b1)

/-- **C76.** A system alone and in a batch, with `k` padding atoms and without (`k` may be zero). -/
theorem C76_padding (hρ : ρ.Fits (m + k))
    (h : Call env T ext numbers positions charge p o (m + k) B R cn eeq P)
    (h' : Call env T ext numbers' positions' charge' p o' m B' R cn eeq P)
    (hfl : env.fl = id) (hT : T.Physical R.rq) (hgc : 0 < R.gc)
    (hcn : cn.IgnoresPadding) (heeq : eeq.IgnoresPadding) {b b' : Idx} (hb : InB B b) (hb' : InB B' b')
    (hp : Padded m k b b' numbers numbers' positions positions' charge charge' o.opts o'.opts) :
    let S := d4Computed env T R P (o'.opts.cutoff.getD {})
    let M := system T cn eeq numbers positions charge o.opts (m + k) b
    let M' := system T cn eeq numbers' positions' charge' o'.opts m b'
    ρ.Suits env T R P (o.opts.cutoff.getD {}) M → ∀ (i : Fin m) (z z' : ℝ),
      ρ.Run env T R P p (o.opts.cutoff.getD {}) M (Fin.castAdd k i) z →
      ρ.Run env T R P p (o'.opts.cutoff.getD {}) M' i z' →
      |z' - z| ≤ 4 * ρ.K (m + k) * ρ.u * Spec.size S M' i := by
  intro S M M' hs i z z' hz hz'
  obtain ⟨e, e', he, he', hee⟩ := C04_padding h h' hcn heeq
  have hM : M' = M.comap (Fin.castAdd k) := system_padded hcn heeq hp
  have hcut := hp.cutoff
  have hs' : ρ.Suits env T R P (o'.opts.cutoff.getD {}) M' := by
    rw [hM, ← hcut]
    exact hs.comap (Fin.castAdd_injective m k)
  have b1 := hρ.energy h hfl hT hgc hb he hs hz
  have b2 := (hρ.mono (Nat.le_add_right m k)).energy h' hfl hT hgc hb' he' hs' hz'
  rw [Fin.val_castAdd, (hee b b' hb hb' hp).1 i.1 i.2] at b1
  have e1 : Spec.size S M' i = Spec.size (d4Computed env T R P (o.opts.cutoff.getD {})) M
      (Fin.castAdd k i) := by
    rw [hM, hcut]
    refine Spec.size_comap (Fin.castAdd_injective m k) (fun j hj => hp.pad j.1 ?_ j.2) i
    by_contra hlt
    exact hj ⟨⟨j.1, by omega⟩, by ext; rfl⟩
  rw [← e1] at b1
  refine near_near (b2.trans ?_) b1
  have hK : (ρ.K m : ℝ) ≤ ρ.K (m + k) := by exact_mod_cast ρ.K_mono (Nat.le_add_right m k)
  have hK0 : (0 : ℝ) < 2 * ρ.K m := by
    have : 0 < ρ.K m := ρ.K_pos m
    positivity
  have h0 := (abs_nonneg _).trans b2
  rw [mul_assoc] at h0
  have hus := nonneg_of_mul_nonneg_right h0 hK0
  rw [mul_assoc, mul_assoc _ ρ.u]
  exact mul_le_mul_of_nonneg_right (by linarith) hus

end

/-! ## Concrete cases: water in double precision -/

namespace Demo

/-- Coordination numbers, charges, exponents and `r4r2` rounded once, reference C6 up to ten times. -/
noncomputable def dblRun : Spec.Rounding :=
  ⟨dbl, dbl, 1, 29, 10, 1, 1, 1, 1, 6, 26, 25, 450, 19, 2, 4, 12, 18053⟩

theorem dblRun_fits : dblRun.Fits 4 where
  v := by norm_num [dblRun, dbl]
  f := le_rfl
  fv := by simp [dblRun]
  u := by norm_num [dblRun, dbl]
  m := by norm_num [dblRun, dbl]
  N := by norm_num [dblRun]
  c := by norm_num [dblRun]
  H1 := by norm_num [dblRun]
  H2 := by norm_num [dblRun]
  G := by norm_num [dblRun, Spec.gaussRoundings]
  K := by norm_num [dblRun, Spec.Rounding.K, Spec.roundings, Spec.c6Roundings, dbl]

theorem water_suits : dblRun.Suits env T .d4 par {} waterMol :=
  ⟨water_double, water_system env_eps env_fmax (by norm_num [dblRun, dbl]) 1 1⟩

/-- CPU and GPU. -/
example (i : Fin 3) (z z' : ℝ) (h : dblRun.Run env T .d4 par param {} waterMol i z)
    (h' : dblRun.Run env T .d4 par param {} waterMol i z') :
    |z' - z| ≤ 6e-11 * Spec.size (d4Computed env T .d4 par {}) waterMol i := by
  have := C76_machines (dblRun_fits.mono (m := 3) (by norm_num)) call rfl physical
    (by norm_num [RefCfg.d4]) (b := [0]) (by simp [InB]) water_suits i z z' h h'
  refine this.trans (mul_le_mul_of_nonneg_right ?_ ?_)
  · norm_num [dblRun, Spec.Rounding.K, Spec.roundings, Spec.c6Roundings, dbl]
  · exact nonneg_of_mul_nonneg_right ((abs_nonneg _).trans this)
      (by norm_num [dblRun, Spec.Rounding.K, Spec.roundings, Spec.c6Roundings, dbl])

/-- Oxygen and hydrogen exchanged. -/
example (i : Fin 3) (z z' : ℝ) (h : dblRun.Run env T .d4 par param {} waterMol (swap i) z)
    (h' : dblRun.Run env T .d4 par param {} (system T cn eeq numbersS positionsS charge {} 3 [0]) i z') :
    |z' - z| ≤ 4 * dblRun.K 3 * dbl * Spec.size (d4Computed env T .d4 par {}) waterMol (swap i) :=
  C76_relabelling (dblRun_fits.mono (m := 3) (by norm_num)) call callSwap rfl physical
    (by norm_num [RefCfg.d4]) cn_equivariant eeq_equivariant rfl (b := [0]) (by simp [InB])
    (relabelledS [0]) water_suits i z z' h h'

/-- Mirrored at the plane `x = 0`. -/
noncomputable def positionsR : Tensor ℝ where
  err := none
  shape := [3, 3, 2]
  get
    | k :: ib => (if k = 0 then -1 else 1) * positions.get (k :: ib)
    | _ => 0

example (i : Fin 3) (z z' : ℝ) (h : dblRun.Run env T .d4 par param {} waterMol i z)
    (h' : dblRun.Run env T .d4 par param {} (system T cn eeq numbers positionsR charge {} 3 [0]) i z') :
    |z' - z| ≤ 4 * dblRun.K 3 * dbl * Spec.size (d4Computed env T .d4 par {}) waterMol i := by
  have hO : Matrix.diagonal (fun k : Fin 3 => if k = 0 then (-1 : ℝ) else 1) ∈
      Matrix.orthogonalGroup (Fin 3) ℝ := by
    rw [Matrix.mem_orthogonalGroup_iff, Matrix.diagonal_transpose, Matrix.diagonal_mul_diagonal,
      ← Matrix.diagonal_one]
    congr 1
    funext k
    by_cases hk : k = 0 <;> simp [hk]
  refine C76_rigid_motion (dblRun_fits.mono (m := 3) (by norm_num)) call (positions' := positionsR) ⟨rfl, rfl⟩ rfl
    physical (by norm_num [RefCfg.d4]) cn_invariant eeq_invariant (b := [0]) (by simp [InB])
    (rigidMotion _ hO 0) (fun i => ?_) (fun i j _ _ hij => ?_) water_suits i z z' h h'
  · ext k
    rw [rigidMotion_apply]
    fin_cases k <;> simp [positionsR, Matrix.diagonal, coords]
  · have e : 10 * Spec.far3 (coords positionsR 3 [0] i) (coords positionsR 3 [0] j) ≤
        29 * Spec.sq3 (coords positionsR 3 [0] i) (coords positionsR 3 [0] j) ↔
        10 * ∑ k : Fin 3, (|positionsR.get [k.1, i.1, 0]| + |positionsR.get [k.1, j.1, 0]|) ^ 2 ≤
          29 * ∑ k : Fin 3, (positionsR.get [k.1, i.1, 0] - positionsR.get [k.1, j.1, 0]) ^ 2 :=
      Iff.rfl
    refine e.2 ?_
    fin_cases i <;> fin_cases j <;>
      first
      | exact absurd rfl hij
      | norm_num [Fin.sum_univ_three, positionsR, positions, abs_of_nonneg]

/-- Water with one padding atom, not in a batch. -/
def numbersW : Tensor ℕ := ⟨none, [4], fun
  | [i] => if i < 3 then numbers.get [i, 0] else 0
  | _ => 0⟩

noncomputable def positionsW : Tensor ℝ := ⟨none, [3, 4], fun
  | [k, i] => positions.get [k, i, 0]
  | _ => 0⟩

noncomputable def chargeW : Tensor ℝ := scalar (charge.get [0])

theorem callW : Call env T ext numbersW positionsW chargeW param {} 4 [] .d4 cn eeq par :=
  { call with
    model := Or.inl ⟨"d4", rfl, keys "d4" (by simp), rfl⟩
    args := { validArgs with
      num := ⟨rfl, rfl⟩
      pos := ⟨rfl, rfl⟩
      charge := ⟨rfl, rfl⟩
      q := fun _ h => by simp at h
      rcov := fun _ h => by simp at h
      r4r2 := fun _ h => by simp at h
      rvdw := fun _ h => by simp at h
      lt := fun i _ => by
        show (numbersW.get i) < 104
        unfold numbersW
        dsimp only
        split
        · split_ifs
          · exact numbers_lt _
          · norm_num
        · norm_num } }

theorem paddedW : Padded 3 1 [] [0] numbersW numbers positionsW positions chargeW charge {} {} where
  num i hi := by
    show (if i < 3 then numbers.get [i, 0] else 0) = _
    rw [if_pos hi]
  pad i hm hi := by interval_cases i; rfl
  pos i hi c hc := rfl
  charge := rfl
  cutoff := rfl
  q _ _ := rfl
  r4r2 _ _ := rfl
  rvdw _ _ _ _ := rfl

theorem waterW_suits : dblRun.Suits env T .d4 par {}
    (system T cn eeq numbersW positionsW chargeW {} (3 + 1) []) := by
  obtain ⟨M, hM⟩ : ∃ M, M = system T cn eeq numbersW positionsW chargeW {} (3 + 1) [] := ⟨_, rfl⟩
  have hw : waterMol = M.comap (Fin.castAdd 1) := by
    rw [hM]; exact system_padded cn_ignoresPadding eeq_ignoresPadding paddedW
  have hs := water_suits
  rw [hw] at hs
  have hr : ∀ j, M.Z j ≠ 0 → ∃ i : Fin 3, Fin.castAdd 1 i = j := by
    intro j hj
    refine ⟨⟨j.1, ?_⟩, rfl⟩
    by_contra hlt
    refine hj ?_
    rw [hM]
    exact paddedW.pad j.1 (by omega) j.2
  have hg : ∀ (A : Spec.AtomData) (Zp : ℕ), A.Z = 0 →
      (atomInput env T .d4 A Zp 1 1 1).Good dbl 25 450 19 2 4 12 := by
    intro A Zp hA
    have hz : ∀ r < nref, ¬0 < (atomInput env T .d4 A Zp 1 1 1).T.refc
        (atomInput env T .d4 A Zp 1 1 1).Z r := fun r hr => by
      show ¬0 < T.refc A.Z r
      rw [hA, refc_pad r hr]
      exact lt_irrefl 0
    have hw := water_good env_eps env_fmax (v := dbl) (kw := 1) (by norm_num [dbl]) (A := waterMol.atom 0)
      (water_Z 0) (water_cn 0).1 (water_cn 0).2 (by show 0 ≤ waterMol.q 0; rw [water_q]; norm_num)
      (by show waterMol.q 0 ≤ 1; rw [water_q]; norm_num) Zp 1 1
    exact ⟨hw.w, hw.three, hw.exponent, fun r hr h => absurd h (hz r hr), fun r hr h => absurd h (hz r hr),
      hw.fmax, hw.ga, hw.gc, hw.ε, fun r hr h => absurd h (hz r hr), fun r hr h => absurd h (hz r hr),
      fun r hr h => absurd h (hz r hr), fun r hr h => absurd h (hz r hr), fun r hr h => absurd h (hz r hr)⟩
  rw [← hM]
  have hgood : ∀ (A : Fin 4 → Spec.AtomData), (∀ i, (A i).Z = M.Z i) →
      (∀ i j : Fin 3, (atomInput env T .d4 (A (Fin.castAdd 1 i)) (M.Z (Fin.castAdd 1 j)) 1 1 1).Good dbl
        25 450 19 2 4 12) → ∀ i j, (atomInput env T .d4 (A i) (M.Z j) 1 1 1).Good dbl 25 450 19 2 4 12 := by
    intro A hA h i j
    by_cases hi : M.Z i = 0
    · exact hg _ _ ((hA i).trans hi)
    · obtain ⟨i, rfl⟩ := hr i hi
      have h' := h i 0
      exact ⟨h'.w, h'.three, h'.exponent, h'.gauss, h'.total, h'.fmax, h'.ga, h'.gc, h'.ε, h'.gam, h'.zeff,
        h'.charge, h'.inner, h'.outer⟩
  refine ⟨{ hs.round with
    Q := fun i => ?_
    clear := fun i j h1 h2 h3 => ?_
    power := fun i j k h1 h2 h3 h4 h5 h6 => ?_ }, ⟨?_, ?_, fun i j h1 h2 h3 => ?_⟩⟩
  · rw [hM]
    exact Real.sqrt_nonneg _
  · obtain ⟨i, rfl⟩ := hr i h1
    obtain ⟨j, rfl⟩ := hr j h2
    exact hs.round.clear i j h1 h2 fun h => h3 (by rw [h])
  · obtain ⟨i, rfl⟩ := hr i h1
    obtain ⟨j, rfl⟩ := hr j h2
    obtain ⟨k, rfl⟩ := hr k h3
    exact hs.round.power i j k h1 h2 h3 (fun h => h4 (by rw [h])) (fun h => h5 (by rw [h]))
      fun h => h6 (by rw [h])
  · exact hgood _ (fun _ => rfl) fun i j => hs.machine.charged i j
  · exact hgood _ (fun _ => rfl) fun i j => hs.machine.neutral i j
  · obtain ⟨i, rfl⟩ := hr i h1
    obtain ⟨j, rfl⟩ := hr j h2
    exact hs.machine.near i j h1 h2 fun h => h3 (by rw [h])

/-- In a batch with hydrogen fluoride or alone with padding. -/
example (i : Fin 3) (z z' : ℝ)
    (h : dblRun.Run env T .d4 par param {} (system T cn eeq numbersW positionsW chargeW {} (3 + 1) [])
      (Fin.castAdd 1 i) z)
    (h' : dblRun.Run env T .d4 par param {} waterMol i z') :
    |z' - z| ≤ 4 * dblRun.K 4 * dbl * Spec.size (d4Computed env T .d4 par {}) waterMol i :=
  C76_padding (k := 1) dblRun_fits callW call rfl physical (by norm_num [RefCfg.d4]) cn_ignoresPadding
    eeq_ignoresPadding (b := []) (b' := [0]) trivial (by simp [InB]) paddedW waterW_suits i z z' h h'

end Demo

end TadDftd4
