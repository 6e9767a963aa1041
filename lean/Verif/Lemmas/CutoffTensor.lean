import Verif.Model.CutoffTensor
import Verif.Lemmas.ParamTensor

/-!
# Evaluation with cutoffs given as tensors
-/

set_option linter.unusedSimpArgs false

open scoped Classical

namespace TadDftd4

open Tensor

/-- A tensor with one value per system of a batch with shape `B`: of size one with at most `k`
dimensions, or of shape `B` followed by `k` dimensions of size one (in the order of PyTorch). -/
def Tensor.PerSystem (x : Tensor ℝ) (k : ℕ) (B : Shape) : Prop :=
  x.err = none ∧ ((∃ k' ≤ k, x.shape = List.replicate k' 1) ∨ x.shape = List.replicate k 1 ++ B)

theorem Tensor.PerSystem.val {x : Tensor ℝ} {k : ℕ} {B : Shape} (h : x.PerSystem k B) :
    (TVal.val x).PerSystem k B := by
  rintro y ⟨rfl⟩
  exact h

theorem Tensor.PerSystem.into {x : Tensor ℝ} {k : ℕ} {B ds : Shape} (h : x.PerSystem k B)
    (hd : ds.length = k) : x.Into (ds ++ B) := h.val.into hd x rfl

theorem Tensor.PerSystem.rd {x : Tensor ℝ} {k : ℕ} {B : Shape} (h : x.PerSystem k B) {i j : Idx}
    (hi : i.length = k) (hj : j.length = k) (b : Idx) : x.rd (i ++ b) = x.rd (j ++ b) := by
  have := h.val.rd hi hj b
  simpa [TVal.rd] using this

/-- The cutoffs of system `b` as numbers. -/
def TCutoff.system (c : TCutoff) (b : Idx) : Cutoff where
  disp2 := c.disp2.rd (0 :: 0 :: b)
  disp3 := c.disp3.rd (0 :: 0 :: 0 :: b)
  cn := c.cn
  cnEeq := c.cnEeq

section two
variable {env : Env} {numbers : Tensor ℕ} {positions c6 r4r2 rvdw : Tensor ℝ} {n c : ℕ} {B : Shape}
  {p : TParam} {d : Damping}

theorem tDampC_eq {radii : Tensor ℝ} {order : ℕ} {cutoff : Tensor ℝ} (c0 : ℝ)
    (hn : numbers.Ok (n :: B)) (hp : positions.Ok (c :: n :: B)) (hc : cutoff.Into (n :: n :: B))
    (ht : (tDampT env numbers positions p radii d c0 order).Ok (n :: n :: B)) :
    (tDampC env numbers positions p radii d cutoff order).Ok (n :: n :: B) ∧
    ∀ i, InB (n :: n :: B) i →
      (tDampC env numbers positions p radii d cutoff order).get i =
      (tDampT env numbers positions p radii d (cutoff.rd i) order).get i := by
  have hdist := pairDistances_ok (env := env) hn hp
  obtain ⟨h1, h2⟩ := ht
  refine ⟨⟨?_, ?_⟩, fun i hi => ?_⟩
  · rw [← h1]
    simp [tDampT, tDampC, hdist.err, hdist.shape, realPairs_err hn.shape, realPairs_shape hn.shape,
      hn.err, hc.err, hc.br, hc.sr]
  · rw [← h2]
    simp [tDampT, tDampC, hdist.shape, realPairs_shape hn.shape, hc.sr]
  · simp only [tDampT, tDampC, where_get]
    have e : ((realPairs numbers).and ((pairDistances env numbers positions).le cutoff)).get
        (pick ((realPairs numbers).and ((pairDistances env numbers positions).le cutoff)).shape i) =
        ((realPairs numbers).and ((pairDistances env numbers positions).le
          (scalar (cutoff.rd i)))).get (pick ((realPairs numbers).and
            ((pairDistances env numbers positions).le (scalar (cutoff.rd i)))).shape i) := by
      simp [realPairs_shape hn.shape, hdist.shape, hc.sr, pick_of_InB hi, Tensor.rd]
    rw [e]

/-- `dispersion2` with cutoffs that broadcast into the pair array: the energy of an atom is that with
the number used for its pairs. -/
theorem dispersion2C_eq {cutoff : Tensor ℝ} (h : D2Shapes numbers positions c6 r4r2 rvdw n c B)
    (hu : ∀ i1 i2 i3, d.Usable env (p.at i1 i2 i3)) (hd : d.Shapes p B)
    (h6 : p.s6.Into (n :: B)) (h8 : p.s8.Into (n :: B)) (h10 : p.s10.Into (n :: B))
    (hc : cutoff.Into (n :: n :: B)) :
    (dispersion2C env numbers positions p c6 r4r2 (some rvdw) d cutoff).Ok (n :: B) ∧
    ∀ b i (c0 : ℝ), InB B b → i < n →
      (∀ j < n, pairMask numbers b i j → cutoff.rd (j :: i :: b) = c0) →
      (dispersion2C env numbers positions p c6 r4r2 (some rvdw) d cutoff).get (i :: b) =
      (dispersion2T env numbers positions p c6 r4r2 (some rvdw) d (some c0)).get (i :: b) := by
  choose f6 hf6 using fun i => (hu i i i).f6
  choose f8 hf8 using fun i => (hu i i i).f8
  have hex := (hu [] [] []).extra
  have T6 := fun c0 => tDampT_pw h hex (hd.into n) hf6 c0
  have T8 := fun c0 => tDampT_pw h hex (hd.into n) hf8 c0
  obtain ⟨k6, g6⟩ := tDampC_eq 0 h.num h.pos hc (T6 0).1
  obtain ⟨k8, g8⟩ := tDampC_eq 0 h.num h.pos hc (T8 0).1
  have Z : ∀ {order : ℕ} {f : Idx → ℝ → ℝ → ℝ} (_ : ∀ c0 : ℝ,
      (tDampT env numbers positions p (radii2 d r4r2 (some rvdw)) d c0 order).Ok (n :: n :: B) ∧
      ∀ b i j, InB B b → i < n → j < n →
        (tDampT env numbers positions p (radii2 d r4r2 (some rvdw)) d c0 order).get (j :: i :: b) =
        if inCut env numbers positions c c0 b i j then
          f (j :: i :: b) (distAt env positions c b i j) (radAt d r4r2 rvdw b i j) else 0) b i,
      InB B b → i < n → ∀ c0 j, j < n → ¬ pairMask numbers b i j →
        (tDampT env numbers positions p (radii2 d r4r2 (some rvdw)) d c0 order).get (j :: i :: b) =
          0 := fun H b i hb hi c0 j hj hm => by
    rw [(H c0).2 b i j hb hi hj, if_neg fun hh => hm hh.1]
  have hqq := qqT_ok h.r4r2
  have hc8 := h.c6.pw.map2 hqq.pw (· * ·)
  have hc8' : (c6 * qqT r4r2).Ok (n :: n :: B) := hc8.ok
  have hdist := pairDistances_ok (env := env) h.num h.pos
  have hrad := radii2_ok (d := d) h
  obtain ⟨t6, -⟩ := TVal.tensor_into h6 (hu [] [] []).s6 Defaults.s6
  obtain ⟨t8, -⟩ := TVal.tensor_into h8 (hu [] [] []).s8 Defaults.s8
  have he6 := (h.c6.pw.map2 k6.pw (· * ·)).sumLast
  have he8 := (hc8.map2 k8.pw (· * ·)).sumLast
  have hed := (he6.parL t6 (· * ·)).map2 (he8.parL t8 (· * ·)) (· + ·)
  have row : ∀ (x : Tensor ℝ) (order : ℕ), x.Ok (n :: n :: B) → ∀ b i (c0 : ℝ), InB B b → i < n →
      (∀ j < n, pairMask numbers b i j → cutoff.rd (j :: i :: b) = c0) →
      (∀ c0 j, j < n → ¬ pairMask numbers b i j → (tDampT env numbers positions p
        (radii2 d r4r2 (some rvdw)) d c0 order).get (j :: i :: b) = 0) →
      (tDampC env numbers positions p (radii2 d r4r2 (some rvdw)) d cutoff order).Ok (n :: n :: B) →
      (tDampT env numbers positions p (radii2 d r4r2 (some rvdw)) d c0 order).Ok (n :: n :: B) →
      (x * tDampC env numbers positions p (radii2 d r4r2 (some rvdw)) d cutoff order).sumLast.get
        (i :: b) =
      (x * tDampT env numbers positions p (radii2 d r4r2 (some rvdw)) d c0 order).sumLast.get
        (i :: b) := by
    intro x order hx b i c0 hb hi hj hz k1 k2
    obtain ⟨-, g⟩ := tDampC_eq (c := c) c0 h.num h.pos hc k2
    have w1 := (hx.pw.map2 k1.pw (· * ·)).sumLast
    have w2 := (hx.pw.map2 k2.pw (· * ·)).sumLast
    refine (w1.get (i :: b) ⟨hi, hb⟩).trans (Eq.trans ?_ (w2.get (i :: b) ⟨hi, hb⟩).symm)
    refine Finset.sum_congr rfl fun j hjm => ?_
    have hjn := Finset.mem_range.1 hjm
    rw [g (j :: i :: b) ⟨hjn, hi, hb⟩]
    by_cases hm : pairMask numbers b i j
    · rw [hj j hjn hm]
    · rw [hz _ j hjn hm, hz _ j hjn hm]
  cases hv : p.s10 with
  | none =>
    have h0 : (p.at [] [] []).s10 = .none := by simp [TParam.at, hv, TVal.rd]
    exact ((hu [] [] []).s10 h0).elim
  | absent =>
    have hres := hed.parL (scalar_into (-0.5) _) (· * ·)
    refine ⟨⟨?_, ?_⟩, fun b i c0 hb hi hj => ?_⟩
    · simp only [dispersion2C, hv, after_err, hdist.err, hc8'.err, hrad.err, k6.err, k8.err,
        orErr_none_left]
      exact hres.ok.err
    · simp only [dispersion2C, hv, after_shape]
      exact hres.ok.shape
    · have r6 := row c6 6 h.c6 b i c0 hb hi hj (Z (T6) b i hb hi) k6 (T6 c0).1
      have r8 := row _ 8 hc8' b i c0 hb hi hj (Z (T8) b i hb hi) k8 (T8 c0).1
      have s1 := k6.shape.trans (T6 c0).1.shape.symm
      have s2 := k8.shape.trans (T8 c0).1.shape.symm
      have hbi : InB (n :: B) (i :: b) := ⟨hi, hb⟩
      simp only [dispersion2C, dispersion2T, hv, after_get, Bool.false_eq_true, if_false,
        Option.getD_some, mul_get, add_get, sumLast_shape, mul_shape, add_shape, s1, s2,
        (T6 c0).1.shape, (T8 c0).1.shape, h.c6.shape, hqq.shape, bshape_self, List.tail_cons, t6.sl,
        t8.sl, scalar_shape, pick_of_InB hbi, r6, r8]
  | val y =>
    choose f10 hf10 using fun i => (hu i i i).f10 (by simp [TParam.at, hv, TVal.rd])
    have T10 := fun c0 => tDampT_pw h hex (hd.into n) hf10 c0
    obtain ⟨k10, -⟩ := tDampC_eq 0 h.num h.pos hc (T10 0).1
    have hc10 := ((h.c6.pw.map2 (hqq.pw.map (· ^ 2)) (· * ·)).parR (scalar_into 49 _)
      (· * ·)).parR (scalar_into 40 _) (· / ·)
    have he10 := (hc10.map2 k10.pw (· * ·)).sumLast
    have hia := hed.iadd (he10.parL (h10 y hv) (· * ·))
    have hres := hia.parL (scalar_into (-0.5) _) (· * ·)
    have h10t : (TVal.val y).tensor Defaults.s10 = y := rfl
    refine ⟨⟨?_, ?_⟩, fun b i c0 hb hi hj => ?_⟩
    · have h3 := hed.ok.err
      have h4 := hc10.ok.err
      have h1 := hia.ok.err
      simp only [dispersion2C, hv, after_err, hdist.err, hc8'.err, hrad.err, k6.err, k8.err,
        orErr_none_left, mul_err, scalar_err, after_shape, scalar_shape, bErr_nil_left,
        orErr_none_right, k10.err, h10t]
      exact orErr_eq_none.2 ⟨h3, orErr_eq_none.2 ⟨h4, h1⟩⟩
    · simp only [dispersion2C, hv, after_shape, h10t]
      exact hres.ok.shape
    · have r6 := row c6 6 h.c6 b i c0 hb hi hj (Z (T6) b i hb hi) k6 (T6 c0).1
      have r8 := row _ 8 hc8' b i c0 hb hi hj (Z (T8) b i hb hi) k8 (T8 c0).1
      have r10 := row _ 10 hc10.ok b i c0 hb hi hj (Z (T10) b i hb hi) k10 (T10 c0).1
      have w := hres.get (i :: b) ⟨hi, hb⟩
      simp only [dispersion2C, hv, after_get, h10t]
      refine w.trans ?_
      have he6' := (h.c6.pw.map2 (T6 c0).1.pw (· * ·)).sumLast
      have he8' := (hc8.map2 (T8 c0).1.pw (· * ·)).sumLast
      have hed' := (he6'.parL t6 (· * ·)).map2 (he8'.parL t8 (· * ·)) (· + ·)
      have he10' := (hc10.map2 (T10 c0).1.pw (· * ·)).sumLast
      have hia' := hed'.iadd (he10'.parL (h10 y hv) (· * ·))
      have hres' := hia'.parL (scalar_into (-0.5) _) (· * ·)
      simp only [dispersion2T, hv, after_get, h10t, Bool.false_eq_true, if_false, Option.getD_some]
      refine Eq.trans ?_ (hres'.get (i :: b) ⟨hi, hb⟩).symm
      have q6 := (he6.get (i :: b) ⟨hi, hb⟩).symm.trans (r6.trans (he6'.get (i :: b) ⟨hi, hb⟩))
      have q8 := (he8.get (i :: b) ⟨hi, hb⟩).symm.trans (r8.trans (he8'.get (i :: b) ⟨hi, hb⟩))
      have q10 := (he10.get (i :: b) ⟨hi, hb⟩).symm.trans (r10.trans (he10'.get (i :: b) ⟨hi, hb⟩))
      simp only [q6, q8, q10]

end two

section three
variable {env : Env} {numbers : Tensor ℕ} {positions c9 radii : Tensor ℝ} {n c : ℕ} {B : Shape}
  {d : Damping}

theorem pick_pick (s : Shape) (i : Idx) : pick s (pick s i) = pick s i := by
  induction s generalizing i with
  | nil => simp
  | cons d s ih =>
    cases i with
    | nil => simp [pick, ih]
    | cons k i => by_cases hd : d = 1 <;> simp [pick, hd, ih]

/-- The squared cutoff. -/
theorem Tensor.PerSystem.sq {x : Tensor ℝ} {k : ℕ} {B : Shape} (h : x.PerSystem k B) :
    (x * x).PerSystem k B ∧ ∀ i, (x * x).rd i = x.rd i * x.rd i := by
  refine ⟨⟨by simp [h.1], by simpa using h.2⟩, fun i => ?_⟩
  simp [Tensor.rd, pick_pick]

theorem atmAngC_eq {cutoff : Tensor ℝ} (hn : numbers.Ok (n :: B)) (hp : positions.Ok (c :: n :: B))
    (hc : cutoff.PerSystem 3 B) :
    (atmAngC env numbers positions cutoff).Ok (n :: n :: n :: B) ∧
    ∀ b i j k, InB B b → i < n → j < n → k < n →
      (atmAngC env numbers positions cutoff).get (k :: j :: i :: b) =
      (atmAng env numbers positions (cutoff.rd (0 :: 0 :: 0 :: b))).get (k :: j :: i :: b) := by
  obtain ⟨hc2, hr2⟩ := hc.sq
  have i1 : (cutoff * cutoff).Into (1 :: n :: n :: B) := hc2.into (ds := [1, n, n]) rfl
  have i2 : (cutoff * cutoff).Into (n :: n :: 1 :: B) := hc2.into (ds := [n, n, 1]) rfl
  have hd2 := dist2T_ok (env := env) hn hp
  obtain ⟨ij1, ij2⟩ := ijT_ok hd2
  obtain ⟨ik1, ik2⟩ := ikT_ok hd2
  obtain ⟨jk1, jk2⟩ := jkT_ok hd2
  unfold atmAngC
  simp only []
  generalize cutoff * cutoff = c2 at *
  refine ⟨⟨?_, ?_⟩, fun b i j k hb hi hj hk => ?_⟩
  · simp [ij1, ij2, ik1, ik2, jk1, jk2, realTriples_err hn.shape,
      realTriples_shape hn.shape, hn.err, i1.err, i1.br, i1.sr, i2.br, i2.sr]
  · simp [ij2, ik2, jk2, realTriples_shape hn.shape, i1.sr, i2.sr]
  · have e : ∀ l, l.length = 3 → c2.rd (l ++ b) =
        cutoff.rd (0 :: 0 :: 0 :: b) * cutoff.rd (0 :: 0 :: 0 :: b) := fun l hl => by
      rw [hc2.rd (j := [0, 0, 0]) hl rfl b]; exact hr2 _
    have e1 : c2.get (pick c2.shape (0 :: j :: i :: b)) = _ := e [0, j, i] rfl
    have e2 : c2.get (pick c2.shape (k :: j :: 0 :: b)) = _ := e [k, j, 0] rfl
    simp only [atmAng, where_get]
    set c0 := cutoff.rd (0 :: 0 :: 0 :: b) with hc0
    have e3 : ((((realTriples numbers).and ((ijT (dist2T env numbers positions)).le c2)).and
        ((jkT (dist2T env numbers positions)).le c2)).and
        ((jkT (dist2T env numbers positions)).le c2)).get (pick ((((realTriples numbers).and
        ((ijT (dist2T env numbers positions)).le c2)).and
        ((jkT (dist2T env numbers positions)).le c2)).and
        ((jkT (dist2T env numbers positions)).le c2)).shape (k :: j :: i :: b)) =
        ((((realTriples numbers).and ((ijT (dist2T env numbers positions)).le (scalar (c0 * c0)))).and
        ((jkT (dist2T env numbers positions)).le (scalar (c0 * c0)))).and
        ((jkT (dist2T env numbers positions)).le (scalar (c0 * c0)))).get (pick
        ((((realTriples numbers).and
        ((ijT (dist2T env numbers positions)).le (scalar (c0 * c0)))).and
        ((jkT (dist2T env numbers positions)).le (scalar (c0 * c0)))).and
        ((jkT (dist2T env numbers positions)).le (scalar (c0 * c0)))).shape (k :: j :: i :: b)) := by
      simp [ij2, jk2, realTriples_shape hn.shape, i1.sr, i2.sr, pick_cons_lt hi, pick_cons_lt hj,
        pick_cons_lt hk, pick_of_InB hb, e1, e2]
    rw [e3]

/-- `get_atm_dispersion` with one cutoff per system. -/
theorem atmDispersionC_eq {cutoff alp s9 : Tensor ℝ} (hn : numbers.Ok (n :: B))
    (hp : positions.Ok (c :: n :: B)) (hr : radii.Ok (n :: n :: B)) (h9 : c9.Ok (n :: n :: n :: B))
    (ha : alp.Into (n :: n :: n :: B)) (hs : s9.Into (n :: n :: n :: B))
    (hc : cutoff.PerSystem 3 B) :
    (atmDispersionC env numbers positions c9 radii cutoff .zero s9 alp).Ok (n :: B) ∧
    ∀ b i, InB B b → i < n →
      (atmDispersionC env numbers positions c9 radii cutoff .zero s9 alp).get (i :: b) =
      (atmDispersionT env numbers positions c9 radii (cutoff.rd (0 :: 0 :: 0 :: b)) .zero s9 alp).get
        (i :: b) := by
  obtain ⟨fok, -⟩ := atmDampT_pw hn hp hr ha (fun i => point9_zero (alp.rd i)) (env := env)
  obtain ⟨aok, aget⟩ := atmAngC_eq (env := env) hn hp hc
  have hen := (((aok.pw.map2 fok.pw (· * ·)).parR hs (· * ·)).map2 h9.pw (· * ·)).sumLast.sumLast
  have hres := hen.parR (scalar_into 6 _) (· / ·)
  refine ⟨⟨?_, hres.ok.shape⟩, fun b i hb hi => ?_⟩
  · simp only [atmDispersionC, after_err, fok.err, orErr_none_left]
    exact hres.ok.err
  · obtain ⟨aok', -⟩ := atmAng_eval (env := env) hn hp (cutoff.rd (0 :: 0 :: 0 :: b))
    have hen' := (((aok'.pw.map2 fok.pw (· * ·)).parR hs (· * ·)).map2 h9.pw
      (· * ·)).sumLast.sumLast
    have hres' := hen'.parR (scalar_into 6 _) (· / ·)
    simp only [atmDispersionC, atmDispersionT, after_get]
    refine (hres.get (i :: b) ⟨hi, hb⟩).trans (Eq.trans ?_ (hres'.get (i :: b) ⟨hi, hb⟩).symm)
    congr 1
    refine Finset.sum_congr rfl fun j hj => Finset.sum_congr rfl fun k hk => ?_
    rw [aget b i j k hb hi (Finset.mem_range.1 hj) (Finset.mem_range.1 hk)]

end three

section term
variable {env : Env} {T : Tables} {m : RefModel} {numbers : Tensor ℕ} {positions : Tensor ℝ}
  {R : RefCfg} {n : ℕ} {B : Shape} {cn q : Idx → ℝ} {r4r2 rvdw : Tensor ℝ} {p : TParam}

/-- One cutoff per system. -/
structure TCutoff.PerSystem (c : TCutoff) (B : Shape) : Prop where
  disp2 : c.disp2.PerSystem 2 B
  disp3 : c.disp3.PerSystem 3 B

theorem t_radii_ok {t : Term} {cutoff : Cutoff} (hin : TermInput env T numbers positions m R r4r2 rvdw n B)
    (hs : t.Shapes p n B) (ht : t.cls ≠ .twoBody) (hu : t.Usable env R (p.at [] [] []) cutoff) :
    (t.radiiT env p r4r2 rvdw).Ok (n :: n :: B) := by
  by_cases hx : t.cls = .d3ATM
  · obtain ⟨tr, -⟩ := TVal.tensor_into ((hs.rs9 hx).into (ds := [n, n]) rfl) (hu.rs9 hx) Defaults.rs9
    simp only [Term.radiiT, hx, radiiVDWT]
    exact (hin.rvdw.pw.parL tr (· * ·)).ok
  · have hbj : t.cls = .d4ATMApprox ∨ t.cls = .d4ATMExact := by
      cases h : t.cls <;> simp_all
    obtain ⟨t1, -⟩ := TVal.tensor_into ((hs.a1 hbj).into (ds := [n, n]) rfl) (hu.a1 hbj) Defaults.a1
    obtain ⟨t2, -⟩ := TVal.tensor_into ((hs.a2 hbj).into (ds := [n, n]) rfl) (hu.a2 hbj) Defaults.a2
    have e1 : t.radiiT env p r4r2 rvdw = radiiBJT env p r4r2 := by
      rcases hbj with h | h <;> simp [Term.radiiT, h]
    rw [e1]
    have hq := (qqT_ok hin.r4r2).pw.map env.ssqrt
    exact ((hq.parL t1 (· * ·)).parR t2 (· + ·)).ok

/-- Every term: the energy of an atom is that with the cutoffs of its system as numbers. -/
theorem term_calculateC {t : Term} {qo : Option (Tensor ℝ)} {cnT : Tensor ℝ} {cutoff : TCutoff}
    {cut₀ : Cutoff}
    (hin : TermInput env T numbers positions m R r4r2 rvdw n B)
    (hc : D4.OptIs (some cnT) n B cn) (hq : D4.OptIs qo n B q) (hs : t.Shapes p n B)
    (hu : ∀ i1 i2 i3, t.Usable env R (p.at i1 i2 i3) cut₀) (h2 : cutoff.disp2.Into (n :: n :: B))
    (h3 : cutoff.disp3.PerSystem 3 B) :
    (t.calculateC env T numbers positions p cnT m qo r4r2 rvdw cutoff).Ok (n :: B) ∧
    ∀ b i (c2 : ℝ), InB B b → i < n →
      (∀ j < n, pairMask numbers b i j → cutoff.disp2.rd (j :: i :: b) = c2) →
      (t.calculateC env T numbers positions p cnT m qo r4r2 rvdw cutoff).get (i :: b) =
      (t.calculateT env T numbers positions p cnT m qo r4r2 rvdw
        { cutoff.system b with disp2 := c2 }).get (i :: b) := by
  by_cases ht : t.cls = .twoBody
  · obtain ⟨c6ok, -⟩ := model_c6_eval hin.model hc (termCharges_optIs (t := t) hq)
    have hsh : D2Shapes numbers positions (m.atomicC6 (m.weights env T (some cnT) (t.charges qo)))
        r4r2 rvdw n 3 B := ⟨hin.num, hin.pos, c6ok, hin.r4r2, hin.rvdw⟩
    simp only [Term.calculateC, Term.calculateT, ht]
    exact dispersion2C_eq hsh (fun i1 i2 i3 => (hu i1 i2 i3).two ht) (hs.damping ht)
      (hs.s6 ht) (hs.s8 ht) (hs.s10 ht) h2
  have hdz : t.damping = .zero := (hu [] [] []).zero ht
  obtain ⟨S, hS⟩ := (hu [] [] []).settings (T := T)
  obtain ⟨c9ok, -⟩ := c9_eval (positions := positions) (r4r2 := r4r2) (rvdw := rvdw) hin.model
    ht hc hq hS
  have rok := t_radii_ok hin hs ht (hu [] [] [])
  obtain ⟨s9, hs9, is9, -⟩ := TVal.arg_into ((hs.s9 ht).into (ds := [n, n, n]) rfl)
    ((hu [] [] []).s9 ht) Defaults.s9
  obtain ⟨alp, halp, ialp, -⟩ := TVal.arg_into ((hs.alp ht).into (ds := [n, n, n]) rfl)
    ((hu [] [] []).alp ht) Defaults.alp
  obtain ⟨aok, aget⟩ := atmDispersionC_eq (env := env) hin.num hin.pos rok c9ok ialp is9 h3
  have e : t.calculateC env T numbers positions p cnT m qo r4r2 rvdw cutoff =
      (t.c9 env T m cnT qo).after ((t.radiiT env p r4r2 rvdw).after (atmDispersionC env numbers
        positions (t.c9 env T m cnT qo) (t.radiiT env p r4r2 rvdw) cutoff.disp3 .zero s9 alp)) := by
    have : t.cls ≠ .twoBody := ht
    unfold Term.calculateC
    split
    · contradiction
    · simp only [hs9, halp, hdz]
  have e' : ∀ c0 : Cutoff, t.calculateT env T numbers positions p cnT m qo r4r2 rvdw c0 =
      (t.c9 env T m cnT qo).after ((t.radiiT env p r4r2 rvdw).after (atmDispersionT env numbers
        positions (t.c9 env T m cnT qo) (t.radiiT env p r4r2 rvdw) c0.disp3 .zero s9 alp)) := by
    intro c0
    have : t.cls ≠ .twoBody := ht
    unfold Term.calculateT
    split
    · contradiction
    · simp only [hs9, halp, hdz]
  rw [e]
  refine ⟨⟨by simp [c9ok.err, rok.err, aok.err], by simp [aok.shape]⟩, fun b i c2 hb hi _ => ?_⟩
  rw [e']
  simp only [after_get]
  exact aget b i hb hi

theorem Term.Usable.cut {t : Term} {q : Param} {c c' : Cutoff} (h : t.Usable env R q c)
    (h3 : t.cls ≠ .twoBody → 0 ≤ c'.disp3) : t.Usable env R q c' :=
  ⟨h.two, h.zero, h.s9, h.alp, h3, h.a1, h.a2, h.rs9, h.exact⟩

theorem sumTermsC_eq {c q : Idx → ℝ} {ts : List Term} {qo : Option (Tensor ℝ)} {cnT : Tensor ℝ}
    {cutoff : TCutoff} {cut₀ : Cutoff}
    (hin : TermInput env T numbers positions m R r4r2 rvdw n B)
    (hc : D4.OptIs (some cnT) n B c) (hq : D4.OptIs qo n B q)
    (hs : ∀ t ∈ ts, t.Shapes p n B) (hu : ∀ t ∈ ts, ∀ i1 i2 i3, t.Usable env R (p.at i1 i2 i3) cut₀)
    (h2 : cutoff.disp2.Into (n :: n :: B)) (h3 : cutoff.disp3.PerSystem 3 B) :
    (sumTermsC env T ts numbers positions p cnT m qo r4r2 rvdw cutoff).Ok (n :: B) ∧
    ∀ b i (c2 : ℝ), InB B b → i < n → 0 ≤ (cutoff.system b).disp3 →
      (∀ j < n, pairMask numbers b i j → cutoff.disp2.rd (j :: i :: b) = c2) →
      (sumTermsC env T ts numbers positions p cnT m qo r4r2 rvdw cutoff).get (i :: b) =
      (sumTermsT env T ts numbers positions p cnT m qo r4r2 rvdw
        { cutoff.system b with disp2 := c2 }).get (i :: b) := by
  unfold sumTermsC sumTermsT
  constructor
  · have key : ∀ (ts : List Term) (e0 : Tensor ℝ), e0.Ok (n :: B) →
        (∀ t ∈ ts, t.Shapes p n B) → (∀ t ∈ ts, ∀ i1 i2 i3, t.Usable env R (p.at i1 i2 i3) cut₀) →
        (ts.foldl (fun energy t => energy + t.calculateC env T numbers positions p cnT m qo r4r2 rvdw
          cutoff) e0).Ok (n :: B) := by
      intro ts
      induction ts with
      | nil => intro e0 h0 _ _; exact h0
      | cons t ts ih =>
        intro e0 h0 hs hu
        obtain ⟨a1, -⟩ := term_calculateC hin hc hq (hs t (by simp)) (hu t (by simp)) h2 h3
        exact ih _ (by constructor <;> simp [h0.err, h0.shape, a1.err, a1.shape])
          (fun t ht => hs t (by simp [ht])) (fun t ht => hu t (by simp [ht]))
    exact key ts _ ⟨rfl, hin.num.shape⟩ hs hu
  · intro b i c2 hb hi hpos hj
    have hbi : InB (n :: B) (i :: b) := ⟨hi, hb⟩
    have key : ∀ (ts : List Term) (e0 e1 : Tensor ℝ), e0.Ok (n :: B) → e1.Ok (n :: B) →
        e0.get (i :: b) = e1.get (i :: b) →
        (∀ t ∈ ts, t.Shapes p n B) → (∀ t ∈ ts, ∀ i1 i2 i3, t.Usable env R (p.at i1 i2 i3) cut₀) →
        (ts.foldl (fun energy t => energy + t.calculateC env T numbers positions p cnT m qo r4r2 rvdw
          cutoff) e0).get (i :: b) =
        (ts.foldl (fun energy t => energy + t.calculateT env T numbers positions p cnT m qo r4r2 rvdw
          { cutoff.system b with disp2 := c2 }) e1).get (i :: b) := by
      intro ts
      induction ts with
      | nil => intro e0 e1 _ _ h1 _ _; exact h1
      | cons t ts ih =>
        intro e0 e1 h0 h1 h01 hs hu
        obtain ⟨a1, a2⟩ := term_calculateC hin hc hq (hs t (by simp)) (hu t (by simp)) h2 h3
        obtain ⟨c1, -⟩ := term_calculateT hin hc hq (hs t (by simp))
          (fun i1 i2 i3 => (hu t (by simp) i1 i2 i3).cut
            (c' := { cutoff.system b with disp2 := c2 }) fun _ => hpos)
        refine ih _ _ ?_ ?_ ?_ (fun t ht => hs t (by simp [ht])) (fun t ht => hu t (by simp [ht]))
        · constructor <;> simp [h0.err, h0.shape, a1.err, a1.shape]
        · constructor <;> simp [h1.err, h1.shape, c1.err, c1.shape]
        · simp only [add_get, h0.shape, a1.shape, c1.shape, h1.shape, pick_of_InB hbi, h01,
            a2 b i c2 hb hi hj]
    exact key ts _ _ ⟨rfl, hin.num.shape⟩ ⟨rfl, hin.num.shape⟩ rfl hs hu

end term

section whole
variable {env : Env} {T : Tables} {ext : Ext} {d : Disp} {numbers : Tensor ℕ}
  {positions charge : Tensor ℝ} {p : TParam} {o : CalcOpts} {n : ℕ} {B : Shape} {R : RefCfg}
  {cn : Spec.CN} {eeq : Spec.EEQ} {cutoff : TCutoff}

/-- Everything `calculate` does before it evaluates the terms involves the cutoff of the charges
only. -/
theorem calculate_termsC {p₀ : Param} {c₀ : Cutoff}
    (h : d.Runs env T ext numbers positions charge p₀ { o with cutoff := some c₀ } n B R cn eeq) :
    ∃ (m : RefModel) (qo : Option (Tensor ℝ)) (c q : Idx → ℝ) (cnT r4r2 rvdw : Tensor ℝ),
      TermInput env T numbers positions m R r4r2 rvdw n B ∧ D4.OptIs (some cnT) n B c ∧
      D4.OptIs qo n B q ∧
      (∀ p (c1 : Cutoff), c1.cnEeq = c₀.cnEeq →
        d.calculate env T ext numbers positions charge p { o with cutoff := some c1 } =
          (sumTerms env T d.terms numbers positions p cnT m qo r4r2 rvdw c1).check) ∧
      ∀ p (c1 : TCutoff), c1.cnEeq = c₀.cnEeq →
        d.calculateC env T ext numbers positions charge p c1 o =
          (sumTermsC env T d.terms numbers positions p cnT m qo r4r2 rvdw c1).check := by
  obtain ⟨m, hgm, hm⟩ := h.model
  have hv := h.args
  set r4 := o.r4r2.getD (getR4R2 T numbers) with hr4
  set rv := o.rvdw.getD (getRvdw T numbers) with hrv
  have hr4ok : r4.Ok (n :: B) := by
    rw [hr4]
    cases h : o.r4r2 with
    | none => exact getR4R2_ok hv
    | some x => exact hv.r4r2 x h
  have hrvok : rv.Ok (n :: n :: B) := by
    rw [hrv]
    cases h : o.rvdw with
    | none => exact getPair_ok hv.num (AllLt.mono hv.lt hv.fits.ext)
    | some x => exact hv.rvdw x h
  obtain ⟨cok, cget⟩ := h.cn n B numbers positions hv.num hv.lt hv.pos
  have hany : d.terms.any (·.chargeDep) = true ↔ ∃ t ∈ d.terms, t.chargeDep = true := by simp
  obtain ⟨qo, qg, hqo, hqis⟩ : ∃ (qo : Option (Tensor ℝ)) (qg : Idx → ℝ),
      (∀ c1 : Cutoff, c1.cnEeq = c₀.cnEeq →
        d.charges ext numbers positions charge c1 o.q = .ok qo) ∧
      D4.OptIs qo n B qg := by
    by_cases hdep : ∃ t ∈ d.terms, t.chargeDep = true
    · have hd := hany.2 hdep
      cases hoq : o.q with
      | some x =>
        have hx := hv.q x hoq
        refine ⟨some x, x.get, fun c1 _ => ?_, Or.inr ⟨x, rfl, hx, rfl⟩⟩
        simp [Disp.charges, hd, hx.shape, hv.num.shape]
      | none =>
        obtain ⟨h1, h2⟩ := h.eeq hdep n B numbers positions charge c₀.cnEeq hv.num
          hv.lt hv.pos hv.charge
        refine ⟨some _, _, fun c1 he => ?_, Or.inr ⟨_, rfl, h1, rfl⟩⟩
        simp [Disp.charges, hd, he, check_ok h1.err, h1.shape, hv.num.shape, bind, Except.bind]
    · have hd : d.terms.any (·.chargeDep) = false := by
        rw [Bool.eq_false_iff]; exact fun h => hdep (hany.1 h)
      rcases h.q with hq | hq
      · have hq : o.q = none := hq
        refine ⟨none, fun _ => 0, fun c1 _ => ?_, Or.inl ⟨rfl, rfl⟩⟩
        simp [Disp.charges, hd, hq]
      · exact absurd hq hdep
  refine ⟨m, qo, _, qg, d.cnFn numbers positions d.counting, r4, rv,
    ⟨hv.num, hv.pos, hm, hr4ok, hrvok⟩, Or.inr ⟨_, rfl, cok, rfl⟩, hqis, fun p c1 he => ?_,
    fun p c1 he => ?_⟩
  · unfold Disp.calculate
    rw [ensure_ok (by rw [hv.num.shape, hv.pos.shape]; rfl)]
    simp only [bind, Except.bind, hgm]
    rw [ensure_ok (by intro x hx; rw [(hv.rcov x hx).shape, hv.num.shape])]
    simp only [← hr4, ← hrv, check_ok hr4ok.err, check_ok hrvok.err]
    rw [ensure_ok (by rw [hr4ok.shape, hv.num.shape])]
    simp only []
    rw [ensure_ok (by rw [hrvok.shape, hv.num.shape]; rfl)]
    simp only [check_ok cok.err, Option.getD_some, hqo c1 he]
  · unfold Disp.calculateC
    rw [ensure_ok (by rw [hv.num.shape, hv.pos.shape]; rfl)]
    simp only [bind, Except.bind, hgm]
    rw [ensure_ok (by intro x hx; rw [(hv.rcov x hx).shape, hv.num.shape])]
    simp only [← hr4, ← hrv, check_ok hr4ok.err, check_ok hrvok.err]
    rw [ensure_ok (by rw [hr4ok.shape, hv.num.shape])]
    simp only []
    rw [ensure_ok (by rw [hrvok.shape, hv.num.shape]; rfl)]
    simp only [check_ok cok.err, hqo { cnEeq := c1.cnEeq } he]

/-- `calculate` with tensors as parameters and cutoffs: the energy of every atom is that with the
numbers used for the atom. -/
theorem calculateC_eq {j1 j2 j3 : Idx} {c₀ : Cutoff}
    (h : d.Runs env T ext numbers positions charge (p.at j1 j2 j3) { o with cutoff := some c₀ } n B R
      cn eeq) (he : cutoff.cnEeq = c₀.cnEeq)
    (hs : ∀ t ∈ d.terms, t.Shapes p n B)
    (h2 : cutoff.disp2.Into (n :: n :: B)) (h3 : cutoff.disp3.PerSystem 3 B) :
    ∃ e, d.calculateC env T ext numbers positions charge p cutoff o = .ok e ∧ e.Ok (n :: B) ∧
      ∀ b i (c2 : ℝ), InB B b → i < n → 0 ≤ (cutoff.system b).disp3 →
        (∀ j < n, pairMask numbers b i j → cutoff.disp2.rd (j :: i :: b) = c2) →
        ∃ e', d.calculate env T ext numbers positions charge
          (p.at (i :: b) (0 :: 0 :: b) (0 :: 0 :: 0 :: b))
          { o with cutoff := some { cutoff.system b with disp2 := c2 } } = .ok e' ∧
        e.get (i :: b) = e'.get (i :: b) := by
  obtain ⟨m, qo, c, q, cnT, r4r2, rvdw, hin, hc, hq, g1, g2⟩ := calculate_termsC h
  have hu0 : ∀ t ∈ d.terms, ∀ i1 i2 i3, t.Usable env R (p.at i1 i2 i3) c₀ := fun t ht i1 i2 i3 =>
    (h.par t ht).at i1 i2 i3
  obtain ⟨ok, get⟩ := sumTermsC_eq hin hc hq hs hu0 h2 h3
  refine ⟨_, (g2 p cutoff he).trans (check_ok ok.err), ok, fun b i c2 hb hi hpos hj => ?_⟩
  have hu : ∀ t ∈ d.terms, ∀ i1 i2 i3, t.Usable env R (p.at i1 i2 i3)
      { cutoff.system b with disp2 := c2 } := fun t ht i1 i2 i3 => (hu0 t ht i1 i2 i3).cut fun _ => hpos
  obtain ⟨-, get'⟩ := sumTermsT_eq hin hc hq hs hu
  refine ⟨_, (g1 _ _ he).trans (check_ok ?_), (get b i c2 hb hi hpos hj).trans (get' b i hb hi)⟩
  have hR : d.Runs env T ext numbers positions charge
      (p.at (i :: b) (0 :: 0 :: b) (0 :: 0 :: 0 :: b))
      { o with cutoff := some { cutoff.system b with disp2 := c2 } } n B R cn eeq :=
    ⟨⟨h.args.num, h.args.pos, h.args.lt, h.args.fits, h.args.charge, h.args.q, h.args.rcov, h.args.r4r2,
      h.args.rvdw⟩, h.model, h.cn, h.eeq, h.q, fun t ht => hu t ht _ _ _⟩
  obtain ⟨S, hS⟩ := hR.settings
  exact (sumTerms_eval hin hc hq hS).1.err

end whole

end TadDftd4
