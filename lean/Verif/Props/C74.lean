import Verif.Props.C02
import Verif.Props.C03
import Verif.Props.C05
import Verif.Props.C37
import Verif.Props.C47
import Verif.Props.C69

/-!
# C74: properties follow the symmetries of the system
-/

open scoped Classical

namespace TadDftd4

open Tensor

section
variable {env : Env} {T : Tables} {ext : Ext} {numbers numbers' : Tensor ℕ}
  {positions positions' charge charge' : Tensor ℝ} {cutoff : Option Cutoff} {n m k : ℕ} {B B' : Shape}
  {cn : Spec.CN} {eeq : Spec.EEQ}

/-- Results of `get_properties` in terms of the systems of the batch. -/
theorem properties_system (hv : ValidArgs T numbers positions charge {} n B)
    (hcn : CNFunc.PerSystem ext.cnD4 none T.nZ cn) (heeq : ext.EEQPerSystem T.nZ eeq) :
    ∃ c q c6 α, getProperties env T ext numbers positions (some charge) cutoff = .ok (c, q, c6, α) ∧
      ∀ b, InB B b → ∀ M, M = system T cn eeq numbers positions charge { cutoff := cutoff } n b →
        (∀ i : Fin n, c.get (i.1 :: b) = M.cn i ∧ q.get (i.1 :: b) = M.q i ∧
          α.get (i.1 :: b) = polAt env T .d4 (M.atom i) 0) ∧
        ∀ i j : Fin n, c6.get (j.1 :: i.1 :: b) = c6At env T .d4 (M.atom i) (M.atom j) := by
  obtain ⟨c, q, c6, α, h, hce, hqe, -, -, -, -, g6, gα⟩ :=
    properties_eval (env := env) (cutoff := cutoff) hv hcn heeq
  refine ⟨c, q, c6, α, h, fun b hb M hM => ?_⟩
  have hcg : ∀ i : Fin n, c.get (i.1 :: b) = M.cn i := by
    intro i
    rw [hce, hM]
    exact (hcn n B numbers positions hv.num hv.lt hv.pos).2 b hb i
  have hqg : ∀ i : Fin n, q.get (i.1 :: b) = M.q i := by
    intro i
    rw [hqe, hM]
    exact (heeq n B numbers positions charge _ hv.num hv.lt hv.pos hv.charge).2 b hb i
  have hZ : ∀ i : Fin n, numbers.get (i.1 :: b) = M.Z i := by
    intro i
    rw [hM]
    rfl
  refine ⟨fun i => ⟨hcg i, hqg i, ?_⟩, fun i j => ?_⟩
  · rw [gα b i hb i.2, hZ, hcg, hqg]
    rfl
  · rw [g6 b i j hb i.2 j.2, hZ, hZ, hcg, hcg, hqg, hqg]
    rfl

/-- The polarizabilities of the model are the specified ones. -/
theorem polAt_spec {R : RefCfg} (hfl : env.fl = id) (hT : T.Physical R.rq) (hgc : 0 < R.gc)
    {A : Spec.AtomData} (hA : A.Z < T.nZ) (w : ℕ) :
    polAt env T R A w = Spec.alpha (R.spec T env.eps) A 0 w := by
  unfold polAt polOf Spec.alpha
  refine Finset.sum_congr rfl fun r hr => ?_
  have hr := Finset.mem_range.1 hr
  rw [wtAt_spec hfl hT hgc hA _ hr, alphaAt_spec hT hgc hA hr]
  rfl

/-- Without underflow, `get_properties` returns the D4 coordination numbers, the EEQ charges, the C6
coefficients of the publication (Casimir-Polder integrals) and the polarizabilities at frequency zero. -/
theorem C74_values (hv : ValidArgs T numbers positions charge {} n B)
    (hcn : CNFunc.PerSystem ext.cnD4 none T.nZ cn) (heeq : ext.EEQPerSystem T.nZ eeq)
    (hfl : env.fl = id) (hT : T.Physical "eeq") :
    ∃ c q c6 α, getProperties env T ext numbers positions (some charge) cutoff = .ok (c, q, c6, α) ∧
      ∀ b, InB B b → ∀ i : Fin n,
        c.get (i.1 :: b) = cn n (elements numbers n b) (coords positions n b) i ∧
        q.get (i.1 :: b) = eeq n (cutoff.getD {}).cnEeq (elements numbers n b) (coords positions n b)
          (charge.get b) i ∧
        α.get (i.1 :: b) = Spec.alpha (RefCfg.d4.spec T env.eps)
          ⟨numbers.get (i.1 :: b), c.get (i.1 :: b), q.get (i.1 :: b)⟩ 0 0 ∧
        ∀ j : Fin n, c6.get (j.1 :: i.1 :: b) = Spec.c6 (RefCfg.d4.spec T env.eps)
          ⟨numbers.get (i.1 :: b), c.get (i.1 :: b), q.get (i.1 :: b)⟩
          ⟨numbers.get (j.1 :: b), c.get (j.1 :: b), q.get (j.1 :: b)⟩ := by
  obtain ⟨c, q, c6, α, h, g⟩ := properties_system (env := env) (cutoff := cutoff) hv hcn heeq
  refine ⟨c, q, c6, α, h, fun b hb i => ?_⟩
  obtain ⟨g1, g2⟩ := g b hb _ rfl
  have hgc : 0 < RefCfg.d4.gc := by norm_num [RefCfg.d4]
  have hlt : ∀ i : Fin n, ((system T cn eeq numbers positions charge { cutoff := cutoff } n b).atom i).Z <
      T.nZ := fun i => hv.Z_lt (cn := cn) (eeq := eeq) hb i
  refine ⟨(g1 i).1, (g1 i).2.1, ?_, fun j => ?_⟩
  · rw [(g1 i).2.2, polAt_spec hfl hT hgc (hlt i), (g1 i).1, (g1 i).2.1]
    rfl
  · rw [g2, c6At_spec hfl hT hgc (hlt i) (hlt j), (g1 i).1, (g1 i).2.1, (g1 j).1, (g1 j).2.1]
    rfl

/-- Relabelling the atoms of a system relabels coordination numbers, charges, polarizabilities and both
indices of the C6 coefficients. -/
theorem C74_relabelling (hv : ValidArgs T numbers positions charge {} n B)
    (hv' : ValidArgs T numbers' positions' charge' {} n B)
    (hcn : CNFunc.PerSystem ext.cnD4 none T.nZ cn) (heeq : ext.EEQPerSystem T.nZ eeq)
    (hce : cn.Equivariant) (hqe : eeq.Equivariant) :
    ∃ c q c6 α c' q' c6' α',
      getProperties env T ext numbers positions (some charge) cutoff = .ok (c, q, c6, α) ∧
      getProperties env T ext numbers' positions' (some charge') cutoff = .ok (c', q', c6', α') ∧
      ∀ b, InB B b → ∀ π : Equiv.Perm (Fin n),
        Relabelled π b numbers numbers' positions positions' charge charge' {} {} →
        ∀ i : Fin n, c'.get (i.1 :: b) = c.get ((π i).1 :: b) ∧ q'.get (i.1 :: b) = q.get ((π i).1 :: b) ∧
          α'.get (i.1 :: b) = α.get ((π i).1 :: b) ∧
          ∀ j : Fin n, c6'.get (j.1 :: i.1 :: b) = c6.get ((π j).1 :: (π i).1 :: b) := by
  obtain ⟨c, q, c6, α, h, g⟩ := properties_system (env := env) (cutoff := cutoff) hv hcn heeq
  obtain ⟨c', q', c6', α', h', g'⟩ := properties_system (env := env) (cutoff := cutoff) hv' hcn heeq
  refine ⟨c, q, c6, α, c', q', c6', α', h, h', fun b hb π hπ i => ?_⟩
  have hπ' : Relabelled π b numbers numbers' positions positions' charge charge'
      { cutoff := cutoff } { cutoff := cutoff } :=
    ⟨hπ.num, hπ.pos, hπ.charge, rfl, fun _ => rfl, fun _ => rfl, fun _ _ => rfl⟩
  obtain ⟨g1, g2⟩ := g b hb _ rfl
  obtain ⟨g1', g2'⟩ := g' b hb _ (system_relabelled hce hqe hπ').symm
  refine ⟨?_, ?_, ?_, fun j => ?_⟩
  · rw [(g1' i).1, (g1 _).1]; rfl
  · rw [(g1' i).2.1, (g1 _).2.1]; rfl
  · rw [(g1' i).2.2, (g1 _).2.2]; rfl
  · rw [g2', g2]; rfl

/-- Moving a system by any isometry of space changes none of its properties. -/
theorem C74_isometry (hv : ValidArgs T numbers positions charge {} n B)
    (hpos : positions'.Ok (3 :: n :: B))
    (hcn : CNFunc.PerSystem ext.cnD4 none T.nZ cn) (heeq : ext.EEQPerSystem T.nZ eeq)
    (hce : cn.Invariant) (hqe : eeq.Invariant) :
    ∃ c q c6 α c' q' c6' α',
      getProperties env T ext numbers positions (some charge) cutoff = .ok (c, q, c6, α) ∧
      getProperties env T ext numbers positions' (some charge) cutoff = .ok (c', q', c6', α') ∧
      ∀ b, InB B b → ∀ g : Spec.E3 ≃ᵢ Spec.E3,
        (∀ i, coords positions' n b i = g (coords positions n b i)) →
        ∀ i : Fin n, c'.get (i.1 :: b) = c.get (i.1 :: b) ∧ q'.get (i.1 :: b) = q.get (i.1 :: b) ∧
          α'.get (i.1 :: b) = α.get (i.1 :: b) ∧
          ∀ j : Fin n, c6'.get (j.1 :: i.1 :: b) = c6.get (j.1 :: i.1 :: b) := by
  obtain ⟨c, q, c6, α, h, g⟩ := properties_system (env := env) (cutoff := cutoff) hv hcn heeq
  obtain ⟨c', q', c6', α', h', g'⟩ :=
    properties_system (env := env) (cutoff := cutoff) { hv with pos := hpos } hcn heeq
  refine ⟨c, q, c6, α, c', q', c6', α', h, h', fun b hb f hf i => ?_⟩
  have hc : coords positions' n b = fun k => f (coords positions n b k) := by funext k; exact hf k
  obtain ⟨g1, g2⟩ := g b hb _ rfl
  obtain ⟨g1', g2'⟩ := g' b hb _ rfl
  obtain ⟨M, hM⟩ : ∃ M, M = system T cn eeq numbers positions charge { cutoff := cutoff } n b := ⟨_, rfl⟩
  obtain ⟨M', hM'⟩ : ∃ M, M = system T cn eeq numbers positions' charge { cutoff := cutoff } n b :=
    ⟨_, rfl⟩
  rw [← hM] at g1 g2
  rw [← hM'] at g1' g2'
  have e1 : ∀ j, M'.cn j = M.cn j := by
    intro j
    rw [hM, hM']
    show cn n _ (coords positions' n b) j = cn n _ (coords positions n b) j
    rw [hc]
    exact hce n f _ _ j
  have e2 : ∀ j, M'.q j = M.q j := by
    intro j
    rw [hM, hM']
    show eeq n _ _ (coords positions' n b) _ j = eeq n _ _ (coords positions n b) _ j
    rw [hc]
    exact hqe n f _ _ _ _ j
  have e3 : ∀ j, M'.atom j = M.atom j := by
    intro j
    unfold Spec.Mol.atom
    rw [e1, e2, hM, hM']
    rfl
  refine ⟨?_, ?_, ?_, fun j => ?_⟩
  · rw [(g1' i).1, (g1 i).1, e1]
  · rw [(g1' i).2.1, (g1 i).2.1, e2]
  · rw [(g1' i).2.2, (g1 i).2.2, e3]
  · rw [g2', g2, e3, e3]

/-- Rotations, reflections and translations change none of the properties. -/
theorem C74_rigid_motion (hv : ValidArgs T numbers positions charge {} n B)
    (hpos : positions'.Ok (3 :: n :: B))
    (hcn : CNFunc.PerSystem ext.cnD4 none T.nZ cn) (heeq : ext.EEQPerSystem T.nZ eeq)
    (hce : cn.Invariant) (hqe : eeq.Invariant) {O : Matrix (Fin 3) (Fin 3) ℝ}
    (hO : O ∈ Matrix.orthogonalGroup (Fin 3) ℝ) (t : Fin 3 → ℝ)
    (hrot : ∀ b, InB B b → ∀ i : Fin n, ∀ k : Fin 3, positions'.get (k.1 :: i.1 :: b) =
      ∑ l : Fin 3, O k l * positions.get (l.1 :: i.1 :: b) + t k) :
    ∃ c q c6 α c' q' c6' α',
      getProperties env T ext numbers positions (some charge) cutoff = .ok (c, q, c6, α) ∧
      getProperties env T ext numbers positions' (some charge) cutoff = .ok (c', q', c6', α') ∧
      ∀ b, InB B b → ∀ i : Fin n, c'.get (i.1 :: b) = c.get (i.1 :: b) ∧
        q'.get (i.1 :: b) = q.get (i.1 :: b) ∧ α'.get (i.1 :: b) = α.get (i.1 :: b) ∧
        ∀ j : Fin n, c6'.get (j.1 :: i.1 :: b) = c6.get (j.1 :: i.1 :: b) := by
  obtain ⟨c, q, c6, α, c', q', c6', α', h, h', g⟩ :=
    C74_isometry (env := env) (cutoff := cutoff) hv hpos hcn heeq hce hqe
  refine ⟨c, q, c6, α, c', q', c6', α', h, h', fun b hb => g b hb
    (rigidMotion O hO (WithLp.toLp 2 t)) fun i => ?_⟩
  ext k
  rw [rigidMotion_apply]
  exact hrot b hb i k

/-- A system packed into any place of a batch with padding atoms has the properties it has elsewhere
without padding. Polarizabilities and C6 coefficients of padding atoms are zero. -/
theorem C74_padding (hv : ValidArgs T numbers positions charge {} (m + k) B)
    (hv' : ValidArgs T numbers' positions' charge' {} m B')
    (hcn : CNFunc.PerSystem ext.cnD4 none T.nZ cn) (heeq : ext.EEQPerSystem T.nZ eeq)
    (hce : cn.IgnoresPadding) (hqe : eeq.IgnoresPadding) :
    ∃ c q c6 α c' q' c6' α',
      getProperties env T ext numbers positions (some charge) cutoff = .ok (c, q, c6, α) ∧
      getProperties env T ext numbers' positions' (some charge') cutoff = .ok (c', q', c6', α') ∧
      ∀ b b', InB B b → InB B' b' →
        Padded m k b b' numbers numbers' positions positions' charge charge' {} {} →
        (∀ i < m, c.get (i :: b) = c'.get (i :: b') ∧ q.get (i :: b) = q'.get (i :: b') ∧
          α.get (i :: b) = α'.get (i :: b') ∧
          ∀ j < m, c6.get (j :: i :: b) = c6'.get (j :: i :: b')) ∧
        ((∀ r < nref, T.refc 0 r = 0) → ∀ i, m ≤ i → i < m + k → α.get (i :: b) = 0 ∧
          ∀ j < m + k, c6.get (j :: i :: b) = 0 ∧ c6.get (i :: j :: b) = 0) := by
  obtain ⟨c, q, c6, α, h, g⟩ := properties_system (env := env) (cutoff := cutoff) hv hcn heeq
  obtain ⟨c', q', c6', α', h', g'⟩ := properties_system (env := env) (cutoff := cutoff) hv' hcn heeq
  refine ⟨c, q, c6, α, c', q', c6', α', h, h', fun b b' hb hb' hp => ⟨fun i hi => ?_, fun h0 i hm hi => ?_⟩⟩
  · have hp' : Padded m k b b' numbers numbers' positions positions' charge charge'
        { cutoff := cutoff } { cutoff := cutoff } :=
      ⟨hp.num, hp.pad, hp.pos, hp.charge, rfl, fun _ _ => rfl, fun _ _ => rfl, fun _ _ _ _ => rfl⟩
    obtain ⟨g1, g2⟩ := g b hb _ rfl
    obtain ⟨g1', g2'⟩ := g' b' hb' _ (system_padded hce hqe hp').symm
    have a := g1 (Fin.castAdd k ⟨i, hi⟩)
    have a' := g1' ⟨i, hi⟩
    simp only [Fin.val_castAdd] at a a'
    refine ⟨?_, ?_, ?_, fun j hj => ?_⟩
    · rw [a.1, a'.1]; rfl
    · rw [a.2.1, a'.2.1]; rfl
    · rw [a.2.2, a'.2.2]; rfl
    · have e := g2 (Fin.castAdd k ⟨i, hi⟩) (Fin.castAdd k ⟨j, hj⟩)
      have e' := g2' ⟨i, hi⟩ ⟨j, hj⟩
      simp only [Fin.val_castAdd] at e e'
      rw [e, e']; rfl
  · have hz : numbers.get (i :: b) = 0 := hp.pad i hm hi
    obtain ⟨g1, g2⟩ := g b hb _ rfl
    obtain ⟨M, hM⟩ : ∃ M, M = system T cn eeq numbers positions charge { cutoff := cutoff } (m + k) b :=
      ⟨_, rfl⟩
    rw [← hM] at g1 g2
    have hZ : (M.atom ⟨i, hi⟩).Z = 0 := by rw [hM]; exact hz
    refine ⟨(C37_polarizabilities hv hcn heeq h hb hi).2.1 h0 hz, fun j hj => ?_⟩
    have e := g2 ⟨i, hi⟩ ⟨j, hj⟩
    have e' := g2 ⟨j, hj⟩ ⟨i, hi⟩
    simp only [] at e e'
    rw [e, e', c6At_symm (M.atom ⟨j, hj⟩)]
    exact ⟨c6At_pad h0 hZ, c6At_pad h0 hZ⟩

/-- The properties of a system depend only on its own entry of the batch. -/
theorem C74_batch_independence (hv : ValidArgs T numbers positions charge {} n B)
    (hv' : ValidArgs T numbers' positions' charge' {} n B')
    (hcn : CNFunc.PerSystem ext.cnD4 none T.nZ cn) (heeq : ext.EEQPerSystem T.nZ eeq) :
    ∃ c q c6 α c' q' c6' α',
      getProperties env T ext numbers positions (some charge) cutoff = .ok (c, q, c6, α) ∧
      getProperties env T ext numbers' positions' (some charge') cutoff = .ok (c', q', c6', α') ∧
      ∀ b b', InB B b → InB B' b' →
        SameEntry n b b' numbers numbers' positions positions' charge charge' {} {} →
        ∀ i < n, c.get (i :: b) = c'.get (i :: b') ∧ q.get (i :: b) = q'.get (i :: b') ∧
          α.get (i :: b) = α'.get (i :: b') ∧
          ∀ j < n, c6.get (j :: i :: b) = c6'.get (j :: i :: b') := by
  obtain ⟨c, q, c6, α, h, g⟩ := properties_system (env := env) (cutoff := cutoff) hv hcn heeq
  obtain ⟨c', q', c6', α', h', g'⟩ := properties_system (env := env) (cutoff := cutoff) hv' hcn heeq
  refine ⟨c, q, c6, α, c', q', c6', α', h, h', fun b b' hb hb' hs i hi => ?_⟩
  have hs' : SameEntry n b b' numbers numbers' positions positions' charge charge'
      { cutoff := cutoff } { cutoff := cutoff } :=
    ⟨hs.num, hs.pad, hs.pos, hs.charge, rfl, fun _ _ => rfl, fun _ _ => rfl, fun _ _ _ _ => rfl⟩
  obtain ⟨g1, g2⟩ := g b hb _ (system_sameEntry hs').symm
  obtain ⟨g1', g2'⟩ := g' b' hb' _ rfl
  have a := g1 ⟨i, hi⟩
  have a' := g1' ⟨i, hi⟩
  refine ⟨a.1.trans a'.1.symm, a.2.1.trans a'.2.1.symm, a.2.2.trans a'.2.2.symm, fun j hj => ?_⟩
  exact (g2 ⟨i, hi⟩ ⟨j, hj⟩).trans (g2' ⟨i, hi⟩ ⟨j, hj⟩).symm

/-- The C6 coefficients are symmetric and non-negative, positive semi-definite as a matrix, and obey the
Cauchy–Schwarz inequality. -/
theorem C74_c6 (hv : ValidArgs T numbers positions charge {} n B)
    (hcn : CNFunc.PerSystem ext.cnD4 none T.nZ cn) (heeq : ext.EEQPerSystem T.nZ eeq)
    {c q c6 α : Tensor ℝ}
    (h : getProperties env T ext numbers positions (some charge) cutoff = .ok (c, q, c6, α)) {b : Idx}
    (hb : InB B b) :
    (∀ i j : Fin n, c6.get (j.1 :: i.1 :: b) = c6.get (i.1 :: j.1 :: b) ∧ 0 ≤ c6.get (j.1 :: i.1 :: b) ∧
      c6.get (j.1 :: i.1 :: b) ^ 2 ≤ c6.get (i.1 :: i.1 :: b) * c6.get (j.1 :: j.1 :: b)) ∧
    ∀ x : Fin n → ℝ, 0 ≤ ∑ i : Fin n, ∑ j : Fin n, x i * x j * c6.get (j.1 :: i.1 :: b) := by
  obtain ⟨c', q', c6', α', h', g⟩ := properties_system (env := env) (cutoff := cutoff) hv hcn heeq
  rw [h] at h'
  cases h'
  obtain ⟨-, g2⟩ := g b hb _ rfl
  obtain ⟨M, hM⟩ : ∃ M, M = system T cn eeq numbers positions charge { cutoff := cutoff } n b := ⟨_, rfl⟩
  rw [← hM] at g2
  obtain ⟨p, hp⟩ : ∃ p : Fin n → ℕ → ℝ, p = fun i w => polAt env T .d4 (M.atom i) w := ⟨_, rfl⟩
  have key : ∀ i j : Fin n, c6.get (j.1 :: i.1 :: b) =
      thopi * ∑ w ∈ Finset.range nfreq, trapzWeights.getD w 0 * (p i w * p j w) := by
    intro i j
    rw [g2 i j, c6At_pol ⟨6, fun _ _ => rfl⟩, hp]
  have hpsd : ∀ x : Fin n → ℝ, 0 ≤ ∑ i : Fin n, ∑ j : Fin n, x i * x j * c6.get (j.1 :: i.1 :: b) := by
    intro x
    have : ∑ i : Fin n, ∑ j : Fin n, x i * x j * c6.get (j.1 :: i.1 :: b) =
        thopi * ∑ w ∈ Finset.range nfreq, trapzWeights.getD w 0 * (∑ i : Fin n, x i * p i w) ^ 2 := by
      simp_rw [key, sq, Finset.sum_mul_sum, Finset.mul_sum]
      rw [Finset.sum_congr rfl fun i _ => Finset.sum_comm, Finset.sum_comm]
      refine Finset.sum_congr rfl fun w _ => Finset.sum_congr rfl fun i _ =>
        Finset.sum_congr rfl fun j _ => ?_
      ring
    rw [this]
    exact mul_nonneg thopi_pos.le (Finset.sum_nonneg fun w _ =>
      mul_nonneg (trapzWeights_nonneg w) (sq_nonneg _))
  refine ⟨fun i j => ⟨?_, ?_, ?_⟩, hpsd⟩
  · rw [g2, g2, c6At_symm]
  · rw [g2]; exact c6At_nonneg _ _
  · have hs := Finset.sum_mul_sq_le_sq_mul_sq (Finset.range nfreq)
      (fun w => √(trapzWeights.getD w 0) * p i w) (fun w => √(trapzWeights.getD w 0) * p j w)
    have e : ∀ f g : ℕ → ℝ, ∑ w ∈ Finset.range nfreq, √(trapzWeights.getD w 0) * f w *
        (√(trapzWeights.getD w 0) * g w) = ∑ w ∈ Finset.range nfreq, trapzWeights.getD w 0 *
        (f w * g w) := by
      intro f g
      refine Finset.sum_congr rfl fun w _ => ?_
      rw [mul_mul_mul_comm, Real.mul_self_sqrt (trapzWeights_nonneg w)]
    simp only [sq] at hs
    rw [e, e, e] at hs
    rw [key, key, key, sq]
    nlinarith [mul_le_mul_of_nonneg_left hs (mul_self_nonneg thopi)]

/-- Without a charge, the properties of one system are those of the neutral system. -/
theorem C74_no_charge (hv : ValidArgs T numbers positions (scalar 0) {} n [])
    (hcn : CNFunc.PerSystem ext.cnD4 none T.nZ cn) (heeq : ext.EEQPerSystem T.nZ eeq) :
    ∃ c q c6 α, getProperties env T ext numbers positions none cutoff = .ok (c, q, c6, α) ∧
      ∀ i : Fin n, q.get [i.1] = eeq n (cutoff.getD {}).cnEeq (elements numbers n [])
        (coords positions n []) 0 i := by
  obtain ⟨c, q, c6, α, h, g⟩ := properties_system (env := env) (cutoff := cutoff) hv hcn heeq
  exact ⟨c, q, c6, α, h, fun i => ((g [] trivial _ rfl).1 i).2.1⟩

end

/-! ## A concrete case: water and hydrogen fluoride, with coordination numbers and charges of D4 -/

namespace Demo

theorem relabelledS (b : Idx) : Relabelled swap b numbers numbersS positions positionsS charge charge {} {} := by
  refine ⟨fun i => ?_, fun i k => ?_, rfl, rfl, fun _ => rfl, fun _ => rfl, fun _ _ => rfl⟩
  · rw [swap_val]; rfl
  · rw [swap_val]; rfl

theorem cnT_perSystem : CNFunc.PerSystem extT.cnD4 none T.nZ (Spec.cnErf cnPar 25) :=
  CNFunc.ofSpec_perSystem _ _ _

theorem refc_pad : ∀ r < nref, T.refc 0 r = 0 := by
  intro r hr
  show at2 Data.refc 0 r = 0
  have h : r < 7 := hr
  interval_cases r <;> rfl

example := C74_values (env := env) (cutoff := none) validArgs cnT_perSystem callT.eeq rfl physical

/-- Fluorine first or hydrogen first. -/
example : ∃ c q c6 α c' q' c6' α',
    getProperties env T extT numbers positions (some charge) none = .ok (c, q, c6, α) ∧
    getProperties env T extT numbersS positionsS (some charge) none = .ok (c', q', c6', α') ∧
    α'.get [0, 1] = α.get [1, 1] ∧ c6'.get [2, 0, 0] = c6.get [2, 1, 0] := by
  obtain ⟨c, q, c6, α, c', q', c6', α', h, h', g⟩ := C74_relabelling (env := env) (cutoff := none)
    validArgs callSwap.args cnT_perSystem callT.eeq Spec.cnErf_equivariant Spec.eeqCharges_equivariant
  exact ⟨c, q, c6, α, c', q', c6', α', h, h', (g [1] (by simp [InB]) swap (relabelledS _) 0).2.2.1,
    (g [0] (by simp [InB]) swap (relabelledS _) 0).2.2.2 2⟩

/-- Mirrored and shifted. -/
example : ∃ c q c6 α c' q' c6' α',
    getProperties env T extT numbers positions (some charge) none = .ok (c, q, c6, α) ∧
    getProperties env T extT numbers positionsM (some charge) none = .ok (c', q', c6', α') ∧
    q'.get [1, 0] = q.get [1, 0] ∧ c6'.get [1, 0, 1] = c6.get [1, 0, 1] := by
  obtain ⟨c, q, c6, α, c', q', c6', α', h, h', g⟩ := C74_rigid_motion (env := env) (cutoff := none)
    (positions' := positionsM) validArgs ⟨rfl, rfl⟩ cnT_perSystem callT.eeq Spec.cnErf_invariant
    Spec.eeqCharges_invariant (O := Matrix.diagonal fun k => if k = 0 then -1 else 1) (by
      rw [Matrix.mem_orthogonalGroup_iff]
      rw [Matrix.diagonal_transpose, Matrix.diagonal_mul_diagonal,
        ← Matrix.diagonal_one]
      congr 1
      funext k
      by_cases hk : k = 0 <;> simp [hk])
    (fun k => if k = 2 then 7 else 0) (by
      intro b _ i k
      fin_cases k <;> simp [positionsM, Matrix.diagonal])
  exact ⟨c, q, c6, α, c', q', c6', α', h, h', (g [0] (by simp [InB]) 1).2.1,
    (g [1] (by simp [InB]) 0).2.2.2 1⟩

/-- Hydrogen fluoride alone and padded. -/
example : ∃ c q c6 α c' q' c6' α',
    getProperties env T extT numbers positions (some charge) none = .ok (c, q, c6, α) ∧
    getProperties env T extT numbersHF positionsHF (some chargeHF) none = .ok (c', q', c6', α') ∧
    c.get [0, 1] = c'.get [0] ∧ α.get [1, 1] = α'.get [1] ∧ α.get [2, 1] = 0 ∧ c6.get [0, 2, 1] = 0 := by
  obtain ⟨c, q, c6, α, c', q', c6', α', h, h', g⟩ := C74_padding (env := env) (cutoff := none) (m := 2)
    (k := 1) validArgs callHF.args cnT_perSystem callT.eeq Spec.cnErf_ignoresPadding
    Spec.eeqCharges_ignoresPadding
  have a := g [1] [] (by simp [InB]) trivial padded
  have z := a.2 refc_pad 2 le_rfl (by norm_num)
  exact ⟨c, q, c6, α, c', q', c6', α', h, h', (a.1 0 (by norm_num)).1, (a.1 1 (by norm_num)).2.2.1, z.1,
    (z.2 0 (by norm_num)).1⟩

/-- Mirrored and shifted, with any function that depends on distances only. -/
example := C74_isometry (env := env) (cutoff := none) (positions' := positionsM) validArgs ⟨rfl, rfl⟩
  cnT_perSystem callT.eeq Spec.cnErf_invariant Spec.eeqCharges_invariant

/-- Replacing the other system of the batch. -/
example : ∃ c q c6 α c' q' c6' α',
    getProperties env T extT numbers positions (some charge) none = .ok (c, q, c6, α) ∧
    getProperties env T extT numbers2 positions2 (some charge) none = .ok (c', q', c6', α') ∧
    c6.get [1, 0, 0] = c6'.get [1, 0, 0] := by
  obtain ⟨c, q, c6, α, c', q', c6', α', h, h', g⟩ := C74_batch_independence (env := env) (cutoff := none)
    validArgs call2.args cnT_perSystem callT.eeq
  exact ⟨c, q, c6, α, c', q', c6', α', h, h', (g [0] [0] (by simp [InB]) (by simp [InB])
    ⟨fun _ _ => rfl, fun _ _ _ => by omega, fun _ _ _ _ => rfl, rfl, rfl, fun _ _ => rfl,
      fun _ _ => rfl, fun _ _ _ _ => rfl⟩ 0 (by norm_num)).2.2.2 1 (by norm_num)⟩

example : ∃ c q c6 α,
    getProperties env T extT numbers positions (some charge) none = .ok (c, q, c6, α) ∧
    c6.get [1, 0, 0] ^ 2 ≤ c6.get [0, 0, 0] * c6.get [1, 1, 0] := by
  obtain ⟨c, q, c6, α, h, -⟩ := C37_shapes (env := env) (cutoff := none) validArgs cnT_perSystem callT.eeq
  exact ⟨c, q, c6, α, h, ((C74_c6 validArgs cnT_perSystem callT.eeq h (b := [0]) (by simp [InB])).1
    0 1).2.2⟩

/-- The charges of hydrogen fluoride without a given charge add up to zero. -/
example : ∃ c q c6 α,
    getProperties env T extT numbersHF positionsHF none none = .ok (c, q, c6, α) ∧
    q.get [0] + q.get [1] = 0 := by
  obtain ⟨c, q, c6, α, h, g⟩ := C74_no_charge (env := env) (cutoff := none) (n := 2)
    { callHF.args with charge := ⟨rfl, rfl⟩ } cnT_perSystem callT.eeq
  refine ⟨c, q, c6, α, h, ?_⟩
  have hs : eeqPar.Stable (elements numbersHF 2 []) (coords positionsHF 2 []) :=
    Spec.EEQPar.stable_of_hardness (fun _ _ => by norm_num [eeqPar]) (fun _ _ => by norm_num [eeqPar])
      fun i j _ _ hij he => by
        have h0 := congrArg (fun v : Spec.E3 => v 0) he
        fin_cases i <;> fin_cases j <;> first
          | exact hij rfl
          | (simp [coords, positionsHF] at h0; norm_num at h0)
  obtain ⟨-, -, hsum⟩ := C69_charges (c := ((none : Option Cutoff).getD {}).cnEeq) (Q := 0) hs (i := 0)
    (by decide)
  rw [Fin.sum_univ_two] at hsum
  have a := g 0
  have b := g 1
  simp only [Fin.val_zero, Fin.val_one] at a b
  rw [a, b]
  exact hsum

end Demo

end TadDftd4
