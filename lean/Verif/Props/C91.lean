import Verif.Lemmas.ParamScan
import Verif.Props.C88

/-!
# C91: several sets of damping parameters at once

Parameters with further leading dimensions give the energies for all sets of parameters at once, in
further leading dimensions of the result: the energies of every set are those of a calculation with the
parameters of the set as numbers. The scaling factor `s10` cannot be the only parameter with further
dimensions.
-/

set_option linter.unusedSimpArgs false

open scoped Classical

namespace TadDftd4

open Tensor

section
variable {env : Env} {T : Tables} {ext : Ext} {d : Disp} {numbers : Tensor ℕ}
  {positions charge : Tensor ℝ} {p : TParam} {n : ℕ} {B K : Shape} {R : RefCfg}
  {cn : Spec.CN} {eeq : Spec.EEQ}

/-! ## Theorems -/

/-- Sets of parameters with indices of shape `K` for a batch of shape `B` (every class of dispersion
object): system `b` has with set `k` the energies of the calculation with the parameters of the set as
numbers. `p.system (b ++ k)` are the numbers for system `b` in set `k`. -/
theorem C91_sets {o : CalcOpts} {b₀ : Idx}
    (h : d.Runs env T ext numbers positions charge (p.system b₀) o n B R cn eeq)
    (hp : p.PerSystem (B ++ K))
    (hz : ∀ t ∈ d.terms, t.cls = .twoBody → t.damping = .zero ∨ t.damping = .mzero →
      p.alp.PerSystem 2 [])
    (h10 : ∀ t ∈ d.terms, t.cls = .twoBody → p.PairFull t.damping (B ++ K) ∨ p.s10.PerSystem 1 B)
    (hfull : ∃ t ∈ d.terms, t.Full p (B ++ K)) :
    ∃ e, d.calculateT env T ext numbers positions charge p o = .ok e ∧ e.err = none ∧
      e.shape = numbers.shape ++ K ∧
      ∀ b k, InB B b → InB K k →
        ∃ e', d.calculate env T ext numbers positions charge (p.system (b ++ k)) o = .ok e' ∧
          ∀ i < n, e.get (i :: (b ++ k)) = e'.get (i :: b) := by
  obtain ⟨e, h1, h2, h3, h4⟩ := calculateT_sets h (hp.shapes hz n)
    (fun t ht hc => (h10 t ht hc).imp_right fun hh => hh.into (ds := [n]) rfl)
  have hsh := h3 hfull
  refine ⟨e, h1, h2.into.err, by rw [hsh, h.args.num.shape]; rfl, fun b k hb hk => ?_⟩
  have hu : d.Runs env T ext numbers positions charge (p.system (b ++ k)) o n B R cn eeq :=
    { h with par := fun t ht => (h.par t ht).at _ _ _ }
  obtain ⟨S, hS⟩ := hu.settings
  obtain ⟨e', h5, -⟩ := hu.eval hS
  refine ⟨e', h5, fun i hi => ?_⟩
  obtain ⟨e'', h6, h7⟩ := h4 b k i hb hk hi
  have : p.at (i :: (b ++ k)) (0 :: 0 :: (b ++ k)) (0 :: 0 :: 0 :: (b ++ k)) = p.system (b ++ k) :=
    hp.atom_eq i (b ++ k)
  rw [this, h5] at h6
  rw [Except.ok.inj h6, ← h7, Tensor.rd, hsh]
  rw [pick_of_InB (show InB (n :: (B ++ K)) (i :: (b ++ k)) from ⟨hi, InB_append hb hk⟩)]

/-- Without a parameter that holds values for all sets the result can be smaller; the entry that
broadcasting reads for a set is the energy with the set. -/
theorem C91_broadcast {o : CalcOpts} {b₀ : Idx}
    (h : d.Runs env T ext numbers positions charge (p.system b₀) o n B R cn eeq)
    (hs : ∀ t ∈ d.terms, t.Shapes p n (B ++ K))
    (h10 : ∀ t ∈ d.terms, t.cls = .twoBody → p.PairFull t.damping (B ++ K) ∨ p.s10.Into (n :: B)) :
    ∃ e K', d.calculateT env T ext numbers positions charge p o = .ok e ∧ e.err = none ∧
      e.shape = numbers.shape ++ K' ∧ bshape K' K = K ∧
      ∀ b k i, InB B b → InB K k → i < n →
        ∃ e', d.calculate env T ext numbers positions charge (p.atom i (b ++ k)) o = .ok e' ∧
          e.get (pick e.shape (i :: (b ++ k))) = e'.get (i :: b) := by
  obtain ⟨e, h1, h2, -, h4⟩ := calculateT_sets h hs h10
  obtain ⟨K', hK⟩ := h2.pre
  have hi := h2.into.shape
  rw [hK] at hi
  exact ⟨e, K', h1, h2.into.err, by rw [hK, h.args.num.shape], (into_append_left hi).all.2.2.1, h4⟩

/-- `dftd4` with several sets of parameters. -/
theorem C91_dftd4 {o : DftOpts} {P : Spec.D4Par} {b₀ : Idx}
    (h : Call env T ext numbers positions charge (p.system b₀) o n B R cn eeq P)
    (hp : p.PerSystem (B ++ K))
    (h10 : p.PairFull .rational (B ++ K) ∨ p.s10.PerSystem 1 B)
    (hfull : p.PairFull .rational (B ++ K) ∨ p.s9.Full 3 (B ++ K) ∨ p.alp.Full 3 (B ++ K)) :
    ∃ e, dftd4T env T ext numbers positions charge p o = .ok e ∧ e.err = none ∧
      e.shape = numbers.shape ++ K ∧
      ∀ b k, InB B b → InB K k →
        ∃ e', dftd4 env T ext numbers positions charge (p.system (b ++ k)) o = .ok e' ∧
          ∀ i < n, e.get (i :: (b ++ k)) = e'.get (i :: b) := by
  obtain ⟨d, ht, hr, h1, h2⟩ := dftd4_object h
  simp only [h1, h2]
  refine C91_sets hr hp (fun t hmem htwo hz => ?_) (fun t hmem htwo => ?_) ?_
  · rw [ht] at hmem
    simp only [List.mem_cons, List.not_mem_nil, or_false] at hmem
    rcases hmem with rfl | rfl <;> simp at hz htwo
  · rw [ht] at hmem
    simp only [List.mem_cons, List.not_mem_nil, or_false] at hmem
    rcases hmem with rfl | rfl
    · exact h10
    · simp at htwo
  · rw [ht]
    rcases hfull with hf | hf
    · exact ⟨⟨.twoBody, .rational, true⟩, by simp, Or.inl ⟨rfl, hf⟩⟩
    · exact ⟨⟨.d4ATMApprox, .zero, false⟩, by simp, Or.inr ⟨by simp, hf⟩⟩

/-- One molecule and a list of `m` sets of parameters: the result has shape `(m, nat)`, and row `k` holds
the energies with set `k`. -/
theorem C91_molecule {o : DftOpts} {P : Spec.D4Par} {b₀ : Idx} {m : ℕ}
    (h : Call env T ext numbers positions charge (p.system b₀) o n [] R cn eeq P)
    (hp : p.PerSystem [m]) (h10 : p.PairFull .rational [m] ∨ p.s10.PerSystem 1 [])
    (hfull : p.PairFull .rational [m] ∨ p.s9.Full 3 [m] ∨ p.alp.Full 3 [m]) :
    ∃ e, dftd4T env T ext numbers positions charge p o = .ok e ∧ e.err = none ∧ e.shape = [n, m] ∧
      ∀ k < m, ∃ e', dftd4 env T ext numbers positions charge (p.system [k]) o = .ok e' ∧
        ∀ i < n, e.get [i, k] = e'.get [i] := by
  obtain ⟨e, h1, h2, h3, h4⟩ := C91_dftd4 (K := [m]) h hp h10 hfull
  refine ⟨e, h1, h2, by rw [h3, h.args.num.shape]; rfl, fun k hk => ?_⟩
  exact h4 [] [k] InB_nil ⟨hk, InB_nil⟩

/-- The two-body energy if `s10` is the only scaling factor with further dimensions. -/
theorem dispersion2T_s10_raises {c6 r4r2 rvdw x : Tensor ℝ} {d : Damping}
    (h : D2Shapes numbers positions c6 r4r2 rvdw n 3 B)
    (hu : ∀ i1 i2 i3, d.Usable env (p.at i1 i2 i3)) (hd : d.Shapes p B)
    (h6 : p.s6.Into (n :: B)) (h8 : p.s8.Into (n :: B)) (h10 : p.s10 = .val x)
    (hx : x.err = none) {a : ℕ} (ha : a = 1 ∨ a = n) (hs : x.shape = a :: (B ++ K)) (hK : K ≠ [])
    (cutoff : Option ℝ) :
    (dispersion2T env numbers positions p c6 r4r2 (some rvdw) d cutoff).err = some .runtime := by
  choose f6 hf6 using fun i => (hu i i i).f6
  choose f8 hf8 using fun i => (hu i i i).f8
  choose f10 hf10 using fun i => (hu i i i).f10 (by simp [TParam.at, h10, TVal.rd])
  obtain ⟨i6, -⟩ := TVal.tensor_into h6 (hu [] [] []).s6 Defaults.s6
  obtain ⟨i8, -⟩ := TVal.tensor_into h8 (hu [] [] []).s8 Defaults.s8
  set cut := cutoff.getD Defaults.disp2Cutoff with hcut
  have hdist := pairDistances_ok (env := env) h.num h.pos
  have hrad := radii2_ok (d := d) h
  have hqq := qqT_ok h.r4r2
  obtain ⟨t6ok, -⟩ := tDampT_pw h (hu [] [] []).extra (hd.into n) hf6 cut
  obtain ⟨t8ok, -⟩ := tDampT_pw h (hu [] [] []).extra (hd.into n) hf8 cut
  obtain ⟨t10ok, -⟩ := tDampT_pw h (hu [] [] []).extra (hd.into n) hf10 cut
  have hc8 := h.c6.pw.map2 hqq.pw (· * ·)
  have h2 : (c6 * qqT r4r2).err = none := hc8.ok.err
  have he6 := (h.c6.pw.map2 t6ok.pw (· * ·)).sumLast
  have he8 := (hc8.map2 t8ok.pw (· * ·)).sumLast
  have hed : (pairSum env numbers positions p c6 r4r2 rvdw d cut).Ok (n :: B) :=
    ((he6.parL i6 (· * ·)).map2 (he8.parL i8 (· * ·)) (· + ·)).ok
  have hc10 : (c6 * (qqT r4r2).map (· ^ 2) * scalar 49 / scalar 40).Ok (n :: n :: B) :=
    (((h.c6.pw.map2 (hqq.pw.map (· ^ 2)) (· * ·)).parR (scalar_into 49 _)
    (· * ·)).parR (scalar_into 40 _) (· / ·)).ok
  have he10 : (c6 * (qqT r4r2).map (· ^ 2) * scalar 49 / scalar 40 * tDampT env numbers positions p
      (radii2 d r4r2 (some rvdw)) d cut 10).sumLast.Ok (n :: B) :=
    (hc10.pw.map2 t10ok.pw (· * ·)).sumLast.ok
  have hi : Shape.Into (n :: B) (n :: (B ++ K)) := Shape.into_append (n :: B) K
  have hxi : Shape.Into x.shape (n :: (B ++ K)) := by
    rw [hs]; exact ⟨ha, Shape.into_self _⟩
  have hts : (pairTen env numbers positions p c6 r4r2 rvdw d cut).shape = n :: (B ++ K) := by
    rw [pairTen, h10]
    show bshape x.shape _ = _
    rw [he10.shape, hs]
    have e1 : bshape (B ++ K) B = B ++ K := (Shape.into_append B K).all.2.2.2
    rcases ha with rfl | rfl <;> simp [e1]
  have hte : (pairTen env numbers positions p c6 r4r2 rvdw d cut).err = none := by
    rw [pairTen, h10]
    have hb := (hxi.combine hi).2
    show (x * _).err = none
    rw [mul_err, hx, he10.err, he10.shape, bErr_eq_none.2 hb]
    rfl
  have hadd : ((pairSum env numbers positions p c6 r4r2 rvdw d cut).iadd
      (pairTen env numbers positions p c6 r4r2 rvdw d cut)).err = some .runtime := by
    have e1 : bshape (n :: B) (n :: (B ++ K)) = n :: (B ++ K) := hi.all.2.2.1
    have ne : n :: (B ++ K) ≠ n :: B := by
      intro hh
      have := congrArg List.length hh
      simp at this
      exact hK this
    simp only [Tensor.iadd, add_err, hed.err, hte, hed.shape, hts, e1, if_neg ne,
      bErr_eq_none.2 hi.all.1, orErr_none_left, orErr_none_right]
  have e : dispersion2T env numbers positions p c6 r4r2 (some rvdw) d cutoff false =
        (pairDistances env numbers positions).after ((c6 * qqT r4r2).after
          ((radii2 d r4r2 (some rvdw)).after
          ((tDampT env numbers positions p (radii2 d r4r2 (some rvdw)) d cut 6).after
          ((tDampT env numbers positions p (radii2 d r4r2 (some rvdw)) d cut 8).after
          (scalar (-0.5) * (pairSum env numbers positions p c6 r4r2 rvdw d cut).after
            ((c6 * (qqT r4r2).map (· ^ 2) * scalar 49 / scalar 40).after
            ((tDampT env numbers positions p (radii2 d r4r2 (some rvdw)) d cut 10).after
            ((pairSum env numbers positions p c6 r4r2 rvdw d cut).iadd
              (pairTen env numbers positions p c6 r4r2 rvdw d cut))))))))) := by
    simp only [dispersion2T, h10, ← hcut, pairSum, pairTen, Bool.false_eq_true, if_false]
  rw [e]
  simp only [after_err, hdist.err, h2, hrad.err, t6ok.err, t8ok.err, orErr_none_left, mul_err,
    scalar_err, hed.err, hc10.err, t10ok.err, hadd, scalar_shape, bErr_nil_left, orErr_none_right]

/-- `dftd4` with sets that differ in `s10` only, given as tensor of the same shape as for the other
scaling factors: a RuntimeError, because the energies of order ten are added in place. -/
theorem C91_s10_raises {o : DftOpts} {P : Spec.D4Par} {b₀ : Idx} {x : Tensor ℝ}
    (h : Call env T ext numbers positions charge (p.system b₀) o n B R cn eeq P)
    (h6 : p.s6.PerSystem 1 B) (h8 : p.s8.PerSystem 1 B) (ha1 : p.a1.PerSystem 2 B)
    (ha2 : p.a2.PerSystem 2 B) (h10 : p.s10 = .val x) (hx : x.Ok (1 :: (B ++ K))) (hK : K ≠ []) :
    dftd4T env T ext numbers positions charge p o = .error .runtime := by
  obtain ⟨d, ht, hr, -, h2⟩ := dftd4_object h
  obtain ⟨M, qo, c, q, cnT, r4r2, rvdw, hin, hc, hq, -, h3⟩ := calculate_terms hr
  rw [h2, h3, ht]
  set t : Term := ⟨.twoBody, .rational, true⟩
  obtain ⟨c6ok, -⟩ := model_c6_eval hin.model hc (termCharges_optIs (t := t) hq)
  have hsh : D2Shapes numbers positions (M.atomicC6 (M.weights env T (some cnT) (t.charges qo)))
      r4r2 rvdw n 3 B := ⟨hin.num, hin.pos, c6ok, hin.r4r2, hin.rvdw⟩
  have hu := hr.par t (by rw [ht]; exact List.mem_cons_self)
  have herr : (t.calculateT env T numbers positions p cnT M qo r4r2 rvdw
      (o.opts.cutoff.getD {})).err = some .runtime :=
    dispersion2T_s10_raises hsh (fun i1 i2 i3 => (hu.two rfl).at i1 i2 i3)
      ⟨fun _ => ha1, fun _ => ha2, by simp [t], by simp [t], by simp [t], by simp [t], by simp [t]⟩
      (h6.into (ds := [n]) rfl) (h8.into (ds := [n]) rfl) h10 hx.err (Or.inl rfl) hx.shape hK _
  have hs : (sumTermsT env T [t, ⟨.d4ATMApprox, .zero, false⟩] numbers positions p cnT M qo r4r2 rvdw
      (o.opts.cutoff.getD {})).err = some .runtime := by
    simp only [sumTermsT, List.foldl_cons, List.foldl_nil, add_err, herr]
    rfl
  unfold Tensor.check
  rw [hs]

end

/-! ## Concrete cases -/

namespace Demo

/-- Three sets of parameters for the batch of water and hydrogen fluoride, `a1` different for the two
systems. -/
noncomputable def paramSets : TParam where
  a1 := .val ⟨none, [1, 1, 2, 3], fun i => if i = [0, 0, 0, 0] then 0.4 else 0.5⟩
  a2 := .val (scalar 5)
  s8 := .val (scalar 1.2)
  s9 := .val ⟨none, [1, 1, 1, 2, 3], fun i => if i = [0, 0, 0, 0, 0] then 1 else 0⟩
  s10 := .val ⟨none, [1, 2, 3], fun _ => 0⟩

theorem paramSets_perSystem : paramSets.PerSystem [2, 3] := by
  constructor <;> intro x hx <;> simp only [paramSets, TVal.val.injEq, reduceCtorEq] at hx
  · rw [← hx]; exact ⟨rfl, Or.inl ⟨0, by norm_num, rfl⟩⟩
  · rw [← hx]; exact ⟨rfl, Or.inr rfl⟩
  · rw [← hx]; exact ⟨rfl, Or.inr rfl⟩
  · rw [← hx]; exact ⟨rfl, Or.inl ⟨0, by norm_num, rfl⟩⟩
  · rw [← hx]; exact ⟨rfl, Or.inr rfl⟩

theorem paramSets_full : paramSets.PairFull .rational [2, 3] :=
  Or.inr (Or.inr ⟨rfl, Or.inl ⟨_, [1, 1], rfl, rfl, rfl⟩⟩)

theorem callSets : Call env T ext numbers positions charge (paramSets.system [0, 0]) {} 3 [2] .d4 cn eeq
    par := by
  have : paramSets.system [0, 0] = { param with s9 := .val 1, s10 := .val 0 } := by
    simp [paramSets, TParam.system, TParam.at, param, TVal.rd, Tensor.rd, pick, scalar]
  rw [this]
  exact { call with par := { reads with s9 := Or.inl rfl, s10 := Or.inl rfl } }

/-- The parameters of hydrogen fluoride in the third set. -/
example : paramSets.system [1, 2] =
    { param with a1 := .val 0.5, s9 := .val 0, s10 := .val 0 } := by
  simp [paramSets, TParam.system, TParam.at, param, TVal.rd, Tensor.rd, pick, scalar]

theorem paramSets_runs : ∃ d : Disp, (∀ t ∈ d.terms, t.cls = .twoBody → t.damping = .rational) ∧
    (∃ t ∈ d.terms, t.cls = .twoBody) ∧
    d.Runs env T ext numbers positions charge (paramSets.system [0, 0]) ({} : DftOpts).opts 3 [2] .d4 cn
      eeq := by
  obtain ⟨d, ht, hr, -⟩ := dftd4_object callSets
  refine ⟨d, fun t h h' => ?_, ⟨⟨.twoBody, .rational, true⟩, by simp [ht], rfl⟩, hr⟩
  rw [ht] at h
  simp only [List.mem_cons, List.not_mem_nil, or_false] at h
  rcases h with rfl | rfl
  · rfl
  · simp at h'

/-- Two values of `a2` for one molecule. -/
noncomputable def paramPair : TParam :=
  { param.toT with a2 := .val ⟨none, [1, 1, 2], fun i => if i = [0, 0, 0] then 5 else 4⟩ }

theorem callPair : Call env T ext numbersHF positionsHF chargeHF (paramPair.system [0]) {} 2 [] .d4 cn
    eeq par := by
  have : paramPair.system [0] = param := by
    simp [paramPair, TParam.system, TParam.at, param, Param.toT, PVal.toT, TVal.rd, Tensor.rd, pick,
      scalar]
  rw [this]
  exact callHF

theorem paramPair_perSystem : paramPair.PerSystem [2] := by
  constructor <;> intro x hx <;>
    simp only [paramPair, param, Param.toT, PVal.toT, TVal.val.injEq, reduceCtorEq] at hx
  all_goals rw [← hx]
  · exact ⟨rfl, Or.inl ⟨0, by norm_num, rfl⟩⟩
  · exact ⟨rfl, Or.inl ⟨0, by norm_num, rfl⟩⟩
  · exact ⟨rfl, Or.inr rfl⟩

/-- Two sets that differ in `s10` only. -/
noncomputable def paramTen : TParam :=
  { param.toT with s10 := .val ⟨none, [1, 2, 2], fun i => if i = [0, 0, 0] then 0 else 1⟩ }

theorem callTen : Call env T ext numbers positions charge (paramTen.system [0, 0]) {} 3 [2] .d4 cn eeq
    par := by
  have : paramTen.system [0, 0] = { param with s10 := .val 0 } := by
    simp [paramTen, TParam.system, TParam.at, param, Param.toT, PVal.toT, TVal.rd, Tensor.rd, pick,
      scalar]
  rw [this]
  exact { call with par := { reads with s10 := Or.inl rfl } }

end Demo

example := C91_dftd4 (K := [3]) Demo.callSets Demo.paramSets_perSystem (Or.inl Demo.paramSets_full)
  (Or.inl Demo.paramSets_full)

example := C91_sets (K := [3]) Demo.paramSets_runs.choose_spec.2.2 Demo.paramSets_perSystem
  (fun t h h' h'' => by rw [Demo.paramSets_runs.choose_spec.1 t h h'] at h''; simp at h'')
  (fun t h h' => by
    rw [Demo.paramSets_runs.choose_spec.1 t h h']; exact Or.inl Demo.paramSets_full)
  (Demo.paramSets_runs.choose_spec.2.1.imp fun t h =>
    ⟨h.1, Or.inl ⟨h.2, by
      rw [Demo.paramSets_runs.choose_spec.1 t h.1 h.2]; exact Demo.paramSets_full⟩⟩)

example := C91_broadcast (K := [3]) Demo.paramSets_runs.choose_spec.2.2
  (Demo.paramSets_perSystem.shapes
    (fun t h h' h'' => by rw [Demo.paramSets_runs.choose_spec.1 t h h'] at h''; simp at h'') 3)
  (fun t h h' => by
    rw [Demo.paramSets_runs.choose_spec.1 t h h']; exact Or.inl Demo.paramSets_full)

example := C91_molecule Demo.callPair Demo.paramPair_perSystem
  (Or.inr (PVal.toT_perSystem .absent _ _))
  (Or.inl (Or.inr (Or.inr ⟨rfl, Or.inr ⟨_, [1, 1], rfl, rfl, rfl⟩⟩)))

example : dftd4T Demo.env Demo.T Demo.ext Demo.numbers Demo.positions Demo.charge Demo.paramTen =
    .error .runtime :=
  C91_s10_raises (K := [2]) Demo.callTen (PVal.toT_perSystem .absent _ _)
    (PVal.toT_perSystem (.val 1.2) _ _) (PVal.toT_perSystem (.val 0.4) _ _)
    (PVal.toT_perSystem (.val 5) _ _) rfl ⟨rfl, rfl⟩ (by simp)

end TadDftd4
