import Verif.Lemmas.Api
import Verif.Lemmas.C6Spec
import Verif.Lemmas.Energy
import Verif.Data.Shipped

/-!
# Common setting of the theorems about `dftd4`, and a concrete instance of it
-/

set_option linter.unusedSimpArgs false

open scoped Classical

namespace TadDftd4

open Tensor

/-- The parameter dictionary holds `a1`, `a2`, `s8` and possibly other scaling parameters, which have
the documented default values if absent. -/
structure Param.Reads (p : Param) (P : Spec.D4Par) : Prop where
  extra : p.extra = []
  a1 : p.a1 = .val P.a1
  a2 : p.a2 = .val P.a2
  s8 : p.s8 = .val P.s8
  s6 : p.s6 = .val P.s6 ∨ p.s6 = .absent ∧ P.s6 = 1
  s10 : p.s10 = .val P.s10 ∨ p.s10 = .absent ∧ P.s10 = 0
  s9 : p.s9 = .val P.s9 ∨ p.s9 = .absent ∧ P.s9 = 1
  alp : p.alp = .val P.alp ∨ p.alp = .absent ∧ P.alp = 16

/-- Everything a call of `dftd4` with rational damping needs: consistent shapes, a usable model `R`,
and coordination number and charge functions that act on each system as `cn` and `eeq`. -/
structure Call (env : Env) (T : Tables) (ext : Ext) (numbers : Tensor ℕ)
    (positions charge : Tensor ℝ) (p : Param) (o : DftOpts) (n : ℕ) (B : Shape) (R : RefCfg)
    (cn : Spec.CN) (eeq : Spec.EEQ) (P : Spec.D4Par) : Prop where
  keys : ext.CasefoldKeys
  args : ValidArgs T numbers positions charge o.opts n B
  model : o.model.Gives env T ext numbers R n B
  cn : CNFunc.PerSystem (o.cnFunction.getD ext.cnD4) (some (o.counting.getD ext.erfCount)) T.nZ cn
  eeq : ext.EEQPerSystem T.nZ eeq
  damping : o.damping = .rational
  par : p.Reads P
  cut3 : 0 ≤ (o.opts.cutoff.getD {}).disp3

/-- The settings with the C6 coefficients as computed (also when exponentials underflow). -/
noncomputable def d4Computed (env : Env) (T : Tables) (R : RefCfg) (P : Spec.D4Par)
    (cutoff : Cutoff) : Spec.Settings :=
  { Spec.d4Settings (R.spec T env.eps) env.eps P cutoff.disp2 cutoff.disp3 with
    c6 := c6At env T R }

section
variable {env : Env} {T : Tables} {ext : Ext} {numbers : Tensor ℕ} {positions charge : Tensor ℝ}
  {p : Param} {o : DftOpts} {n : ℕ} {B : Shape} {R : RefCfg} {cn : Spec.CN} {eeq : Spec.EEQ}
  {P : Spec.D4Par}

theorem Param.Reads.point (hp : p.Reads P) :
    Damping.point env .rational 6 false p.kw = .ok (ratF P.a1 P.a2 6) ∧
    Damping.point env .rational 8 false p.kw = .ok (ratF P.a1 P.a2 8) ∧
    (p.s10 = .val P.s10 → Damping.point env .rational 10 false p.kw = .ok (ratF P.a1 P.a2 10)) := by
  have h6 : p.kw.s6 ≠ none := by
    rcases hp.s6 with h | ⟨h, -⟩ <;> simp [Param.kw, PVal.kw, h]
  refine ⟨?_, ?_, fun h10 => ?_⟩ <;>
    simp_all [Damping.point, Damping.required, Damping.pointF, Param.kw, PVal.kw, hp.a1, hp.a2, hp.s8]

theorem Param.Reads.dftPar (hp : p.Reads P) {cutoff : Cutoff} (hc : 0 ≤ cutoff.disp3) :
    DftPar env T R p cutoff .rational
      { d4Computed env T R P cutoff with f9 := zeroF env 1 (P.alp / 3) } where
  ε := rfl
  c6 := rfl
  two := {
    noExtra := hp.extra
    f6 := hp.point.1
    f8 := hp.point.2.1
    s6 := hp.s6
    s8 := Or.inl hp.s8
    s10 := by
      rcases hp.s10 with h | ⟨h, h0⟩
      · exact Or.inr ⟨h, hp.point.2.2 h⟩
      · exact Or.inl ⟨h, h0⟩
    radius := rfl }
  cut2 := rfl
  cut3 := rfl
  cut3_nonneg := hc
  s9 := hp.s9
  a1 := Or.inl hp.a1
  a2 := Or.inl hp.a2
  alp := ⟨P.alp, hp.alp, rfl⟩

theorem zeroF_pos {R r a : ℝ} (h : 0 < r) : zeroF env 1 a R r = 1 / (1 + 6 * (R / r) ^ a) := by
  unfold zeroF Env.sdiv
  rw [if_neg h.ne', one_mul]

/-- `dftd4` with rational damping, for any behaviour of the exponentials at underflow. -/
theorem Call.eval (h : Call env T ext numbers positions charge p o n B R cn eeq P) :
    ∃ e, dftd4 env T ext numbers positions charge p o = .ok e ∧ e.Ok (n :: B) ∧
      ∀ b, InB B b → ∀ i : Fin n, e.get (i.1 :: b) =
        Spec.energy (d4Computed env T R P (o.opts.cutoff.getD {}))
          (system T cn eeq numbers positions charge o.opts n b) i := by
  obtain ⟨e, h1, h2, h3⟩ := dftd4_eval h.keys h.args h.model h.cn h.eeq
    (by rw [h.damping]; exact h.par.dftPar h.cut3)
  refine ⟨e, h1, h2, fun b hb i => ?_⟩
  rw [h3 b hb i]
  refine Spec.energy_congr ?_ ?_ i
  · exact env.eps_pos
  · constructor
    case f9 => intro R r hr; exact zeroF_pos hr
    all_goals intros; rfl

/-- Without underflow the coefficients are the published ones. -/
theorem energy_d4Settings (hfl : env.fl = id) (hT : T.Physical R.rq) (hgc : 0 < R.gc)
    {cutoff : Cutoff} {M : Spec.Mol n} (hM : ∀ i, M.Z i < T.nZ) (i : Fin n) :
    Spec.energy (d4Computed env T R P cutoff) M i =
      Spec.energy (Spec.d4Settings (R.spec T env.eps) env.eps P cutoff.disp2 cutoff.disp3) M i := by
  refine Spec.energy_congr ?_ ?_ i
  · exact env.eps_pos
  · constructor
    case c6 => intro i j q q'; exact c6At_spec hfl hT hgc (hM i) (hM j)
    all_goals intros; rfl

theorem ValidArgs.Z_lt {o : CalcOpts} (h : ValidArgs T numbers positions charge o n B) {b : Idx}
    (hb : InB B b) (i : Fin n) :
    (system T cn eeq numbers positions charge o n b).Z i < T.nZ := by
  refine h.lt _ ?_
  rw [h.num.shape]
  exact ⟨i.2, hb⟩

end

/-! ## Tensor functions from functions on one system -/

/-- Coordination number function acting on each system of a batch as `g`. -/
noncomputable def CNFunc.ofSpec (g : Spec.CN) : CNFunc := fun numbers positions _ =>
  { err := orErr numbers.err positions.err
    shape := numbers.shape
    get := fun idx => match numbers.shape, idx with
      | n :: _, i :: b => if h : i < n then g n (elements numbers n b) (coords positions n b) ⟨i, h⟩
        else 0
      | _, _ => 0 }

theorem CNFunc.ofSpec_perSystem (g : Spec.CN) (c : Option CountFn) (N : ℕ) :
    CNFunc.PerSystem (.ofSpec g) c N g := by
  intro n B numbers positions hn hlt hp
  refine ⟨⟨by simp [ofSpec, hn.err, hp.err], by simp [ofSpec, hn.shape]⟩, fun b hb i => ?_⟩
  simp [ofSpec, hn.shape]

/-- Charge model acting on each system of a batch as `g`. -/
noncomputable def eeqOfSpec (g : Spec.EEQ) (numbers : Tensor ℕ) (positions charge : Tensor ℝ)
    (c : ℝ) : Tensor ℝ :=
  { err := orErr numbers.err (orErr positions.err charge.err)
    shape := numbers.shape
    get := fun idx => match numbers.shape, idx with
      | n :: _, i :: b => if h : i < n then
          g n c (elements numbers n b) (coords positions n b) (charge.get b) ⟨i, h⟩ else 0
      | _, _ => 0 }

theorem eeqOfSpec_perSystem {ext : Ext} (g : Spec.EEQ) (h : ext.eeq = eeqOfSpec g) (N : ℕ) :
    ext.EEQPerSystem N g := by
  intro n B numbers positions charge c hn hlt hp hc
  rw [h]
  refine ⟨⟨by simp [eeqOfSpec, hn.err, hp.err, hc.err], by simp [eeqOfSpec, hn.shape]⟩,
    fun b hb i => ?_⟩
  simp [eeqOfSpec, hn.shape]

/-! ## A concrete instance: water -/

namespace Demo

/-- A coordination number: sum of a decaying function of the distances to the other real atoms. -/
noncomputable def cn : Spec.CN := fun _ Z pos i =>
  ∑ j, if Z i ≠ 0 ∧ Z j ≠ 0 ∧ i ≠ j then Real.exp (-dist (pos i) (pos j)) else 0

/-- Charges: the total charge distributed evenly over the real atoms. -/
noncomputable def eeq : Spec.EEQ := fun _ _ Z _ Q i =>
  if Z i ≠ 0 then Q / ∑ j, (if Z j ≠ 0 then 1 else 0) else 0

noncomputable def ext : Ext where
  cnD3 := .ofSpec cn
  cnD4 := .ofSpec cn
  erfCount _ _ := 0
  eeq := eeqOfSpec eeq
  casefold s := String.ofList (s.toList.map Char.toLower)

noncomputable def env : Env where
  eps := 1 / 2 ^ 52
  eps_pos := by positivity
  fmax := 10 ^ 308
  one_le_fmax := one_le_pow₀ (by norm_num)
  fl := id
  fl_nonneg _ h := h

noncomputable def gam : ℕ → ℝ := fun _ => 1 / 2
noncomputable def zeff : ℕ → ℝ := fun Z => Z

theorem extTables : ExtTables 119 gam zeff where
  len := by norm_num
  gam _ _ _ := by norm_num [gam]
  zeff Z _ _ := by
    unfold zeff
    exact_mod_cast min_le_left Z 5

/-- The shipped tables with simple external ones. -/
noncomputable def T : Tables := shipped 119 gam zeff fun _ _ => 3

theorem fits : T.Fits := shipped_fits extTables
theorem physical : T.Physical "eeq" := shipped_physical extTables (Or.inl rfl)

/-- Water and, padded to the same size, hydrogen fluoride. -/
def numbers : Tensor ℕ where
  err := none
  shape := [3, 2]
  get
    | [0, 0] => 8
    | [1, 0] => 1
    | [2, 0] => 1
    | [0, 1] => 9
    | [1, 1] => 1
    | _ => 0

noncomputable def positions : Tensor ℝ where
  err := none
  shape := [3, 3, 2]
  get
    | [0, 1, _] => 1.8
    | [1, 2, 0] => 1.8
    | _ => 0

noncomputable def charge : Tensor ℝ := ⟨none, [2], fun _ => 1⟩

noncomputable def param : Param where
  a1 := .val 0.4
  a2 := .val 5
  s8 := .val 1.2

noncomputable def par : Spec.D4Par := ⟨1, 1.2, 0, 1, 0.4, 5, 16⟩

theorem reads : param.Reads par where
  extra := rfl
  a1 := rfl
  a2 := rfl
  s8 := rfl
  s6 := Or.inr ⟨rfl, rfl⟩
  s10 := Or.inr ⟨rfl, rfl⟩
  s9 := Or.inr ⟨rfl, rfl⟩
  alp := Or.inr ⟨rfl, rfl⟩

theorem keys : ext.CasefoldKeys := by
  intro k hk
  simp only [List.mem_cons, List.not_mem_nil, or_false] at hk
  rcases hk with rfl | rfl | rfl | rfl <;> rfl

theorem numbers_lt (i : Idx) : numbers.get i < 104 := by
  unfold numbers
  dsimp only
  split <;> norm_num

theorem validArgs : ValidArgs T numbers positions charge {} 3 [2] where
  num := ⟨rfl, rfl⟩
  pos := ⟨rfl, rfl⟩
  lt i _ := numbers_lt i
  fits := fits
  charge := ⟨rfl, rfl⟩
  q _ h := by simp at h
  rcov _ h := by simp at h
  r4r2 _ h := by simp at h
  rvdw _ h := by simp at h

/-- All hypotheses are met by water and hydrogen fluoride with default options. -/
theorem call : Call env T ext numbers positions charge param {} 3 [2] .d4 cn eeq par where
  keys := keys
  args := validArgs
  model := Or.inl ⟨"d4", rfl, keys "d4" (by simp), rfl⟩
  cn := CNFunc.ofSpec_perSystem _ _ _
  eeq := eeqOfSpec_perSystem eeq rfl _
  damping := rfl
  par := reads
  cut3 := by norm_num [Defaults.disp3Cutoff]

/-- The same with the D4S model. -/
theorem callS : Call env T ext numbers positions charge param { model := .key "d4s" } 3 [2]
    (.d4s T) cn eeq par :=
  { call with model := Or.inr (Or.inl ⟨"d4s", rfl, keys "d4s" (by simp), rfl⟩) }

end Demo

end TadDftd4
