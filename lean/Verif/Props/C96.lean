import Verif.Lemmas.OnlyDamping
import Verif.Props.C09
import Verif.Props.C53
import Verif.Props.C62

/-!
# C96: an entry `only_damping` in the parameter dictionary

The dictionary is passed to damping functions as keywords, so that an entry of this name is not rejected as other unknown
names are, but taken for the keyword of `Damping.__call__`.
-/

open scoped Classical

namespace TadDftd4

open Tensor

section
variable {env : Env} {T : Tables} {ext : Ext} {k : OnlyKey}

theorem callParamO_eq {d : Damping} (h : k ≠ .isTrue ∨ d ≠ .zero) (dist rad : Tensor ℝ) (order : ℕ) (p : Param) :
    d.callParamO env k dist rad order p = d.callParam env dist rad order p := by
  unfold Damping.callParamO Damping.callParam
  cases k with
  | isTrue =>
    have hd : d ≠ .zero := h.resolve_left (fun h => h rfl)
    show (if p.extra ≠ [] then _ else d.call env dist rad order true p.kw) = _
    rw [C53_ignored hd]
  | _ => rfl

theorem tDampO_eq {d : Damping} (h : k ≠ .isTrue ∨ d ≠ .zero) :
    tDampO env k (d := d) = tDamp env (d := d) := by
  funext numbers positions p radii cutoff order
  unfold tDampO tDamp
  simp only [callParamO_eq h]

theorem dispersion2O_eq {d : Damping} (h : k ≠ .isTrue ∨ d ≠ .zero) (numbers : Tensor ℕ) (positions : Tensor ℝ)
    (p : Param) (c6 r4r2 : Tensor ℝ) (rvdw : Option (Tensor ℝ)) (cutoff : Option ℝ) (asMatrix : Bool) :
    dispersion2O env k numbers positions p c6 r4r2 rvdw d cutoff asMatrix =
      dispersion2 env numbers positions p c6 r4r2 rvdw d cutoff asMatrix := by
  have e : ∀ radii cut order, tDampO env k numbers positions p radii d cut order =
      tDamp env numbers positions p radii d cut order := fun radii cut order => by
    unfold tDampO tDamp
    simp only [callParamO_eq h]
  unfold dispersion2O dispersion2
  simp only [e]
  rfl

theorem calculateO_eq {t : Term} (h : k ≠ .isTrue ∨ t.cls ≠ .twoBody ∨ t.damping ≠ .zero) :
    t.calculateO env k T = t.calculate env T := by
  funext numbers positions p cn model q r4r2 rvdw cutoff
  unfold Term.calculateO
  cases hc : t.cls with
  | twoBody =>
    have h' : k ≠ .isTrue ∨ t.damping ≠ .zero := h.imp_right fun h => h.resolve_left (fun h => h hc)
    simp only [dispersion2O_eq h', Term.calculate, hc]
  | _ => rfl

/-- **C96**: dispersion objects ignore the entry, whatever its value, unless a two-body term uses zero damping and the
entry is the object `True`: the result or exception is the one without it. -/
theorem C96_ignored (d : Disp) (h : k = .isTrue → ∀ t ∈ d.terms, t.cls = .twoBody → t.damping ≠ .zero)
    (numbers : Tensor ℕ) (positions charge : Tensor ℝ) (p : Param) (o : CalcOpts) :
    d.calculateO env k T ext numbers positions charge p o =
      d.calculate env T ext numbers positions charge p o := by
  have key : ∀ (l : List Term), (∀ t ∈ l, t ∈ d.terms) → ∀ (cn : Tensor ℝ) (model : RefModel)
      (q : Option (Tensor ℝ)) (r4r2 rvdw : Tensor ℝ) (cutoff : Cutoff) (e : Tensor ℝ),
      l.foldl (fun energy t => energy + t.calculateO env k T numbers positions p cn model q r4r2 rvdw cutoff) e =
        l.foldl (fun energy t => energy + t.calculate env T numbers positions p cn model q r4r2 rvdw cutoff) e := by
    intro l
    induction l with
    | nil => intros; rfl
    | cons t l ih =>
      intro hl cn model q r4r2 rvdw cutoff e
      rw [List.foldl_cons, List.foldl_cons, ih fun s hs => hl s (List.mem_cons_of_mem _ hs), calculateO_eq]
      by_cases hk : k = .isTrue
      · by_cases hc : t.cls = .twoBody
        · exact Or.inr (Or.inr (h hk t (hl t List.mem_cons_self) hc))
        · exact Or.inr (Or.inl hc)
      · exact Or.inl hk
  unfold Disp.calculateO Disp.calculate sumTermsO sumTerms
  simp only [key d.terms fun _ h => h]

/-- **C96**: `dftd4` ignores the entry unless zero damping is asked for. -/
theorem C96_dftd4 (numbers : Tensor ℕ) (positions charge : Tensor ℝ) (p : Param) (o : DftOpts)
    (h : k = .isTrue → o.damping ≠ .zero) :
    dftd4O env k T ext numbers positions charge p o = dftd4 env T ext numbers positions charge p o := by
  unfold dftd4O dftd4
  simp only [bind, Except.bind]
  generalize hn : Disp.new ext .base o.model none (some (o.cnFunction.getD ext.cnD4))
    (some (o.counting.getD ext.erfCount)) = D
  cases D with
  | error e => rfl
  | ok d =>
    have ht : d.terms = [] := new_terms hn
    refine C96_ignored _ (fun hk t hm hc => ?_) _ _ _ _ _
    simp only [Disp.register, ht, List.nil_append, List.cons_append, List.mem_cons, List.not_mem_nil,
      or_false] at hm
    rcases hm with rfl | rfl
    · exact h hk
    · exact absurd hc (by simp)

end

section
variable {env : Env} {numbers : Tensor ℕ} {positions c6 r4r2 rvdw : Tensor ℝ} {n c : ℕ} {B : Shape} {p : Param}

/-- What zero damping of pairs reads from the parameters. -/
structure Spec.ReadsPairZero (p : Param) (s6 s8 rs6 rs8 alp : ℝ) : Prop where
  extra : p.extra = []
  s6 : p.s6.Is 1 s6
  s8 : p.s8.Is 1 s8
  s10 : p.s10 = .absent
  rs6 : p.rs6 = .val rs6
  rs8 : p.rs8 = .val rs8
  alp : p.alp.Is 16 alp

theorem Spec.ReadsPairZero.kw_alp {s6 s8 rs6 rs8 alp : ℝ} (h : Spec.ReadsPairZero p s6 s8 rs6 rs8 alp) :
    p.kw.alp = some alp := by
  rcases h.alp with e | ⟨e, rfl⟩
  · simp [Param.kw, e, PVal.kw]
  · simp [Param.kw, e, PVal.kw, Defaults.alp]

theorem Spec.ReadsPairZero.point {s6 s8 rs6 rs8 alp : ℝ} (h : Spec.ReadsPairZero p s6 s8 rs6 rs8 alp) :
    Damping.point env .zero 6 true p.kw = .ok (zeroF env rs6 alp) ∧
    Damping.point env .zero 8 true p.kw = .ok (zeroF env rs8 (alp + 2)) ∧
    Damping.point env .zero 6 false p.kw = .ok (fun x r => env.sdiv (zeroF env rs6 alp x r) (x ^ 6)) ∧
    Damping.point env .zero 8 false p.kw = .ok (fun x r => env.sdiv (zeroF env rs8 (alp + 2) x r) (x ^ 8)) := by
  have e6 : p.kw.rs6 = some rs6 := by simp [Param.kw, h.rs6, PVal.kw]
  have e8 : p.kw.rs8 = some rs8 := by simp [Param.kw, h.rs8, PVal.kw]
  refine ⟨?_, ?_, ?_, ?_⟩ <;>
    simp [Damping.point, Damping.required, Damping.pointF, e6, e8, h.kw_alp]

/-- **C96**: with zero damping and the entry `True`, `dispersion2` raises nothing and returns for a real pair within
the cutoff `-(s6 C6 f6 + s8 C8 f8)`: the damping factors without the powers of the distance. Without the entry it
returns `-(s6 C6 f6 / r^6 + s8 C8 f8 / r^8)` with the same factors. -/
theorem C96_zero (h : D2Shapes numbers positions c6 r4r2 rvdw n c B) {s6 s8 rs6 rs8 alp : ℝ}
    (hp : Spec.ReadsPairZero p s6 s8 rs6 rs8 alp) (cut : ℝ) :
    (dispersion2O env .isTrue numbers positions p c6 r4r2 (some rvdw) .zero (some cut) true).Ok (n :: n :: B) ∧
    (dispersion2O env .isTrue numbers positions p c6 r4r2 (some rvdw) .zero (some cut)).Ok (n :: B) ∧
    ∀ b i, InB B b → i < n →
      ((dispersion2O env .isTrue numbers positions p c6 r4r2 (some rvdw) .zero (some cut)).get (i :: b) =
        1 / 2 * ∑ j ∈ Finset.range n,
          (dispersion2O env .isTrue numbers positions p c6 r4r2 (some rvdw) .zero (some cut) true).get (j :: i :: b)) ∧
      ∀ j < n, i ≠ j → numbers.get (i :: b) ≠ 0 → numbers.get (j :: b) ≠ 0 →
        √env.eps ≤ pairDist positions c b i j → pairDist positions c b i j ≤ cut → rvdw.get (j :: i :: b) ≠ 0 →
        let r := pairDist positions c b i j
        let R := rvdw.get (j :: i :: b)
        let C6 := c6.get (j :: i :: b)
        let C8 := C6 * (3 * r4r2.get (i :: b) * r4r2.get (j :: b))
        let f6 := 1 / (1 + 6 * (rs6 * (r / R)) ^ alp)
        let f8 := 1 / (1 + 6 * (rs8 * (r / R)) ^ (alp + 2))
        (dispersion2O env .isTrue numbers positions p c6 r4r2 (some rvdw) .zero (some cut) true).get (j :: i :: b) =
          -(s6 * (C6 * f6) + s8 * (C8 * f8)) ∧
        (dispersion2 env numbers positions p c6 r4r2 (some rvdw) .zero (some cut) true).get (j :: i :: b) =
          -(s6 * (C6 * f6 / r ^ 6) + s8 * (C8 * f8 / r ^ 8)) := by
  obtain ⟨p6, p8, p6', p8'⟩ := hp.point (env := env)
  obtain ⟨ok1, ok2, gm, ga⟩ := dispersion2O_eval (k := .isTrue) (f10 := fun _ _ => 0) h hp.extra p6 p8 hp.s6 hp.s8
    hp.s10 (some cut)
  obtain ⟨-, -, gm', -⟩ := dispersion2_eval (f10 := fun _ _ => 0) (s10 := 0) h hp.extra p6' p8' hp.s6 hp.s8
    (Or.inl ⟨hp.s10, rfl⟩) (some cut)
  refine ⟨ok1, ok2, fun b i hb hi => ⟨?_, fun j hj hij hZi hZj hlo hd hR => ?_⟩⟩
  · rw [ga b i hb hi, Finset.sum_congr rfl fun j hj => gm b i j hb hi (Finset.mem_range.1 hj),
      Finset.sum_neg_distrib]
    ring
  · intro r R C6 C8 f6 f8
    have hr : distAt env positions c b i j = r := by
      rw [distAt_eq_max, max_eq_left hlo]
    have hr0 : 0 < r := hr ▸ distAt_pos (env := env) (positions := positions) (c := c) b i j
    have hin : inCut env numbers positions c ((some cut).getD Defaults.disp2Cutoff) b i j :=
      ⟨⟨hZi, hZj, hij⟩, by rw [hr]; exact hd⟩
    have hs : env.sdiv r R = r / R := by simp [Env.sdiv, hR, R]
    have hs6 : ∀ x, env.sdiv x (r ^ 6) = x / r ^ 6 := fun x => by simp [Env.sdiv, hr0.ne']
    have hs8 : ∀ x, env.sdiv x (r ^ 8) = x / r ^ 8 := fun x => by simp [Env.sdiv, hr0.ne']
    have hrad : radAt .zero r4r2 rvdw b i j = R := rfl
    rw [gm b i j hb hi hj, gm' b i j hb hi hj]
    unfold pairEnergy
    rw [if_pos hin, if_pos hin, hr, hrad]
    unfold pairE
    simp only [hs6, hs8, zeroF, hs]
    constructor
    · ring
    · ring

/-- **C96**: the pairs are then overestimated by at least the sixth power of the distance, where it is one or more. -/
theorem C96_overbinds (h : D2Shapes numbers positions c6 r4r2 rvdw n c B) {s6 s8 rs6 rs8 alp : ℝ}
    (hp : Spec.ReadsPairZero p s6 s8 rs6 rs8 alp) {cut : ℝ} (h8 : 0 ≤ s8)
    (hrs8 : 0 ≤ rs8) {b : Idx} (hb : InB B b) {i j : ℕ} (hi : i < n) (hj : j < n) (hij : i ≠ j)
    (hZi : numbers.get (i :: b) ≠ 0) (hZj : numbers.get (j :: b) ≠ 0) (heps : √env.eps ≤ 1)
    (hlo : 1 ≤ pairDist positions c b i j) (hd : pairDist positions c b i j ≤ cut)
    (hR : 0 < rvdw.get (j :: i :: b)) (hC : 0 ≤ c6.get (j :: i :: b)) (hi4 : 0 ≤ r4r2.get (i :: b))
    (hj4 : 0 ≤ r4r2.get (j :: b)) :
    (dispersion2O env .isTrue numbers positions p c6 r4r2 (some rvdw) .zero (some cut) true).get (j :: i :: b) ≤
      pairDist positions c b i j ^ 6 *
        (dispersion2 env numbers positions p c6 r4r2 (some rvdw) .zero (some cut) true).get (j :: i :: b) := by
  obtain ⟨-, -, hall⟩ := C96_zero (env := env) h hp cut
  obtain ⟨e1, e2⟩ := (hall b i hb hi).2 j hj hij hZi hZj (heps.trans hlo) hd hR.ne'
  rw [e1, e2]
  set r := pairDist positions c b i j
  have hr0 : 0 < r := lt_of_lt_of_le one_pos hlo
  have hx : 0 ≤ r / rvdw.get (j :: i :: b) := by positivity
  have hf : 0 ≤ 1 / (1 + 6 * (rs8 * (r / rvdw.get (j :: i :: b))) ^ (alp + 2)) := by
    have := Real.rpow_nonneg (mul_nonneg hrs8 hx) (alp + 2)
    positivity
  have hF : 0 ≤ s8 * (c6.get (j :: i :: b) * (3 * r4r2.get (i :: b) * r4r2.get (j :: b)) *
      (1 / (1 + 6 * (rs8 * (r / rvdw.get (j :: i :: b))) ^ (alp + 2)))) := by positivity
  generalize 1 / (1 + 6 * (rs8 * (r / rvdw.get (j :: i :: b))) ^ (alp + 2)) = f8 at *
  generalize 1 / (1 + 6 * (rs6 * (r / rvdw.get (j :: i :: b))) ^ alp) = f6 at *
  generalize c6.get (j :: i :: b) * (3 * r4r2.get (i :: b) * r4r2.get (j :: b)) = C8 at *
  have hle : s8 * (C8 * f8) / r ^ 2 ≤ s8 * (C8 * f8) := div_le_self hF (one_le_pow₀ hlo)
  have e : r ^ 6 * -(s6 * (c6.get (j :: i :: b) * f6 / r ^ 6) + s8 * (C8 * f8 / r ^ 8)) =
      -(s6 * (c6.get (j :: i :: b) * f6) + s8 * (C8 * f8) / r ^ 2) := by
    field_simp
  rw [e]
  linarith

end

/-- Parameters of zero damping. -/
noncomputable def Demo.onlyParam : Param := { s6 := .val 1, s8 := .val 1, rs6 := .val 1, rs8 := .val 1, alp := .val 14 }

theorem Demo.onlyReads : Spec.ReadsPairZero Demo.onlyParam 1 1 1 1 14 :=
  ⟨rfl, Or.inl rfl, Or.inl rfl, rfl, rfl, rfl, Or.inl rfl⟩

theorem Demo.onlyShapes : D2Shapes Demo.dimer Demo.far (full [2, 2] 5) (full [2] 2) (full [2, 2] 6) 2 3 [] :=
  ⟨⟨rfl, rfl⟩, ⟨rfl, rfl⟩, ⟨rfl, rfl⟩, ⟨rfl, rfl⟩, ⟨rfl, rfl⟩⟩

theorem Demo.only_eps : √Demo.env.eps ≤ 1 := by
  rw [Real.sqrt_le_left (by norm_num)]
  show (1 : ℝ) / 2 ^ 52 ≤ 1 ^ 2
  norm_num

/-- **C96**, the claim that the entry never changes energies is false: with zero damping, for two atoms 60 Bohr apart the
energies differ. -/
theorem C96_false : ¬ ∀ (env : Env) (k : OnlyKey) (numbers : Tensor ℕ) (positions : Tensor ℝ) (p : Param)
    (c6 r4r2 rvdw : Tensor ℝ) (d : Damping),
    (dispersion2O env k numbers positions p c6 r4r2 (some rvdw) d (some 60) true).get [1, 0] =
      (dispersion2 env numbers positions p c6 r4r2 (some rvdw) d (some 60) true).get [1, 0] := by
  intro H
  obtain ⟨-, -, hall⟩ := C96_zero (env := Demo.env) Demo.onlyShapes Demo.onlyReads 60
  obtain ⟨e1, e2⟩ := (hall [] 0 InB_nil (by norm_num)).2 1 (by norm_num) (by norm_num) (by simp [Demo.dimer])
    (by simp [Demo.dimer]) (by rw [Demo.far_dist]; exact Demo.only_eps.trans (by norm_num))
    (by rw [Demo.far_dist]) (by show (6 : ℝ) ≠ 0; norm_num)
  have e := e1.symm.trans ((H _ _ _ _ _ _ _ _ _).trans e2)
  rw [Demo.far_dist] at e
  have c6 : (full [2, 2] (5 : ℝ)).get [1, 0] = 5 := rfl
  have r1 : (full [2] (2 : ℝ)).get [0] = 2 := rfl
  have r2 : (full [2] (2 : ℝ)).get [1] = 2 := rfl
  have rv : (full [2, 2] (6 : ℝ)).get [1, 0] = 6 := rfl
  rw [c6, r1, r2, rv] at e
  have p6 : (0 : ℝ) < 1 / (1 + 6 * (1 * (60 / 6)) ^ (14 : ℝ)) := by positivity
  have p8 : (0 : ℝ) < 1 / (1 + 6 * (1 * (60 / 6)) ^ ((14 : ℝ) + 2)) := by positivity
  generalize (1 : ℝ) / (1 + 6 * (1 * (60 / 6)) ^ (14 : ℝ)) = f6 at e p6
  generalize (1 : ℝ) / (1 + 6 * (1 * (60 / 6)) ^ ((14 : ℝ) + 2)) = f8 at e p8
  norm_num at e
  linarith

/-! ## Examples -/

example (k : OnlyKey) := C96_dftd4 (env := Demo.env) (T := Demo.T) (ext := Demo.ext) (k := k) Demo.numbers
  Demo.positions (scalar 0) Demo.param {} (fun _ => by decide)

/-- An entry `1` instead of `True` is ignored also with zero damping. -/
example := C96_dftd4 (env := Demo.env) (T := Demo.T) (ext := Demo.ext) (k := .other) Demo.numbers
  Demo.positions (scalar 0) Demo.onlyParam { damping := .zero } (fun h => by cases h)

example (d : Disp) (h : d.terms = [⟨.twoBody, .rational, true⟩]) := C96_ignored (env := Demo.env) (T := Demo.T)
  (ext := Demo.ext) (k := .isTrue) d (fun _ t ht _ => by rw [h, List.mem_singleton] at ht; subst ht; decide)
  Demo.numbers Demo.positions (scalar 0) Demo.param {}

/-- The energy of this pair is too large by a factor of at least 60⁶. -/
example : (dispersion2O Demo.env .isTrue Demo.dimer Demo.far Demo.onlyParam (full [2, 2] 5) (full [2] 2)
      (some (full [2, 2] 6)) .zero (some 60) true).get [1, 0] ≤
    60 ^ 6 * (dispersion2 Demo.env Demo.dimer Demo.far Demo.onlyParam (full [2, 2] 5) (full [2] 2)
      (some (full [2, 2] 6)) .zero (some 60) true).get [1, 0] := by
  have h := C96_overbinds (env := Demo.env) Demo.onlyShapes Demo.onlyReads (cut := 60) (by norm_num) (by norm_num)
    InB_nil (i := 0) (j := 1) (by norm_num) (by norm_num) (by norm_num) (by simp [Demo.dimer]) (by simp [Demo.dimer])
    Demo.only_eps (by rw [Demo.far_dist]; norm_num) (by rw [Demo.far_dist]) (by show (0 : ℝ) < 6; norm_num)
    (by show (0 : ℝ) ≤ 5; norm_num) (by show (0 : ℝ) ≤ 2; norm_num) (by show (0 : ℝ) ≤ 2; norm_num)
  rwa [Demo.far_dist] at h

end TadDftd4
