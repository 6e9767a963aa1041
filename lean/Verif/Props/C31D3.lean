import Verif.Props.C31
import Verif.Props.AnyDisp
import Verif.Props.C27

/-!
# C31: which D3 parameter sets can be used

The sets for rational damping work with `DispD3BJ`; of those for zero damping exactly the three without the problem of
`C31_d3_zero` work with `DispD3Zero`.
-/

namespace TadDftd4
open Tensor

/-- Only known keys, all given values numbers, and what rational damping requires is present. -/
def Block.rationalDampOk (b : Block) : Bool :=
  (b.all fun x => x.1 ∈ "doi" :: paramKeys) && b.hasNum "a1" && b.hasNum "a2" && b.numOrAbsent "s6" &&
    b.numOrAbsent "s8" && b.numOrAbsent "s10" && b.numOrAbsent "s9" && b.numOrAbsent "alp" && b.numOrAbsent "rs9"

/-- The same for zero damping. -/
def Block.zeroDampOk (b : Block) : Bool :=
  (b.all fun x => x.1 ∈ "doi" :: paramKeys) && b.hasNum "rs6" &&
    (b.hasNum "rs8" || ((b.lookup "s8").isNone && (b.lookup "rs8").isNone)) && b.numOrAbsent "s6" &&
    b.numOrAbsent "s8" && (b.lookup "s10").isNone && b.numOrAbsent "s9" && b.numOrAbsent "alp" && b.numOrAbsent "rs9"

theorem Block.hasNum_pval {b : Block} {k : String} (h : b.hasNum k = true) : ∃ x, b.pval k = .val x := by
  unfold Block.hasNum at h
  unfold Block.pval
  split at h
  · next x hx => rw [hx]; exact ⟨_, rfl⟩
  · exact absurd h (by simp)

theorem Block.numOrAbsent_pval {b : Block} {k : String} (h : b.numOrAbsent k = true) : b.pval k ≠ .none := by
  unfold Block.numOrAbsent at h
  unfold Block.pval
  cases hx : b.lookup k with
  | none => simp
  | some x =>
    cases x with
    | num x => simp
    | str x => rw [hx] at h; exact absurd h (by simp)

theorem Block.isNone_pval {b : Block} {k : String} (h : (b.lookup k).isNone = true) : b.pval k = .absent := by
  unfold Block.pval
  rw [Option.isNone_iff_eq_none.1 h]

theorem Block.keys_extra {b : Block} (hk : (b.all fun x => x.1 ∈ "doi" :: paramKeys) = true) : b.param.extra = [] := by
  simp only [Block.param, List.filter_eq_nil_iff]
  intro k hk'
  obtain ⟨x, hx, rfl⟩ := List.mem_map.1 hk'
  have := List.all_eq_true.1 hk x hx
  simpa [or_iff_not_imp_left] using this

theorem Block.keys_dropDoi {b : Block} (keep : Bool) (hk : (b.all fun x => x.1 ∈ "doi" :: paramKeys) = true) :
    ((dropDoi keep b).all fun x => x.1 ∈ "doi" :: paramKeys) = true := by
  refine List.all_eq_true.2 fun x hx => List.all_eq_true.1 hk x ?_
  unfold dropDoi at hx
  split at hx
  · exact hx
  · exact List.mem_of_mem_filter hx

theorem lookup_dropDoi (b : Block) (keep : Bool) {k : String} (hk : k ≠ "doi") :
    (dropDoi keep b).lookup k = b.lookup k := by
  rw [dropDoi_same keep b k, if_neg (fun h => hk h.1)]

theorem Block.rationalDampOk_dropDoi {b : Block} (keep : Bool) (h : b.rationalDampOk = true) :
    (dropDoi keep b).rationalDampOk = true := by
  have hl : ∀ k ≠ "doi", (dropDoi keep b).lookup k = b.lookup k := fun k hk => lookup_dropDoi b keep hk
  simp only [Block.rationalDampOk, Block.hasNum, Block.numOrAbsent, Bool.and_eq_true,
    hl "a1" (by decide), hl "a2" (by decide), hl "s8" (by decide), hl "s6" (by decide),
    hl "s10" (by decide), hl "s9" (by decide), hl "alp" (by decide), hl "rs9" (by decide)] at h ⊢
  obtain ⟨⟨⟨⟨⟨⟨⟨⟨hk, h1⟩, h2⟩, h3⟩, h4⟩, h5⟩, h6⟩, h7⟩, h8⟩ := h
  exact ⟨⟨⟨⟨⟨⟨⟨⟨Block.keys_dropDoi keep hk, h1⟩, h2⟩, h3⟩, h4⟩, h5⟩, h6⟩, h7⟩, h8⟩

theorem Block.zeroDampOk_dropDoi {b : Block} (keep : Bool) (h : b.zeroDampOk = true) : (dropDoi keep b).zeroDampOk = true := by
  have hl : ∀ k ≠ "doi", (dropDoi keep b).lookup k = b.lookup k := fun k hk => lookup_dropDoi b keep hk
  simp only [Block.zeroDampOk, Block.hasNum, Block.numOrAbsent, Bool.and_eq_true,
    hl "rs6" (by decide), hl "rs8" (by decide), hl "s8" (by decide), hl "s6" (by decide),
    hl "s10" (by decide), hl "s9" (by decide), hl "alp" (by decide), hl "rs9" (by decide)] at h ⊢
  obtain ⟨⟨⟨⟨⟨⟨⟨⟨hk, h1⟩, h2⟩, h3⟩, h4⟩, h5⟩, h6⟩, h7⟩, h8⟩ := h
  exact ⟨⟨⟨⟨⟨⟨⟨⟨Block.keys_dropDoi keep hk, h1⟩, h2⟩, h3⟩, h4⟩, h5⟩, h6⟩, h7⟩, h8⟩

theorem PVal.kw_val_or_absent {v : PVal} (h : v ≠ .none) (d : ℝ) : ∃ x, v.kw (some d) = some x := by
  cases v with
  | absent => exact ⟨d, rfl⟩
  | none => exact absurd rfl h
  | val x => exact ⟨x, rfl⟩

section
variable {env : Env} {b : Block}

theorem Block.rationalDampOk_usable (h : b.rationalDampOk = true) : Damping.Usable env .rational b.param ∧
    b.param.s9 ≠ .none ∧ b.param.alp ≠ .none ∧ b.param.rs9 ≠ .none := by
  simp only [Block.rationalDampOk, Bool.and_eq_true] at h
  obtain ⟨⟨⟨⟨⟨⟨⟨⟨hk, h1⟩, h2⟩, h3⟩, h4⟩, h5⟩, h6⟩, h7⟩, h8⟩ := h
  obtain ⟨x1, h1⟩ := Block.hasNum_pval h1
  obtain ⟨x2, h2⟩ := Block.hasNum_pval h2
  refine ⟨⟨Block.keys_extra hk, Block.numOrAbsent_pval h3, Block.numOrAbsent_pval h4, Block.numOrAbsent_pval h5, ?_, ?_,
    fun _ => ?_⟩, Block.numOrAbsent_pval h6, Block.numOrAbsent_pval h7, Block.numOrAbsent_pval h8⟩ <;>
  · simp only [Damping.point, Damping.required, Damping.pointF, Param.kw, PVal.kw, Block.param, h1, h2]
    split_ifs <;> simp_all

theorem Block.zeroDampOk_usable (h : b.zeroDampOk = true) : Damping.Usable env .zero b.param ∧
    b.param.s9 ≠ .none ∧ b.param.alp ≠ .none ∧ b.param.rs9 ≠ .none := by
  simp only [Block.zeroDampOk, Bool.and_eq_true, Bool.or_eq_true] at h
  obtain ⟨⟨⟨⟨⟨⟨⟨⟨hk, h1⟩, h2⟩, h3⟩, h4⟩, h5⟩, h6⟩, h7⟩, h8⟩ := h
  obtain ⟨x1, h1⟩ := Block.hasNum_pval h1
  have h5 := Block.isNone_pval h5
  obtain ⟨al, hal⟩ := PVal.kw_val_or_absent (Block.numOrAbsent_pval h7) Defaults.alp
  refine ⟨⟨Block.keys_extra hk, Block.numOrAbsent_pval h3, Block.numOrAbsent_pval h4, by simp [Block.param, h5], ?_, ?_,
    fun hc => absurd h5 hc⟩, Block.numOrAbsent_pval h6, Block.numOrAbsent_pval h7, Block.numOrAbsent_pval h8⟩
  · have hal' : b.param.alp.kw (some Defaults.alp) = some al := hal
    have h1' : b.param.rs6 = .val x1 := h1
    simp only [Damping.point, Damping.required, Damping.pointF, Param.kw, h1', hal']
    simp [PVal.kw]
  · have hal' : b.param.alp.kw (some Defaults.alp) = some al := hal
    rcases h2 with h2 | ⟨h2, h2'⟩
    · obtain ⟨x2, h2⟩ := Block.hasNum_pval h2
      have h2' : b.param.rs8 = .val x2 := h2
      simp only [Damping.point, Damping.required, Damping.pointF, Param.kw, h2', hal']
      simp [PVal.kw]
    · have h2 := Block.isNone_pval h2
      have h2' := Block.isNone_pval h2'
      simp [Damping.point, Param.kw, Block.param, h2, h2', PVal.kw]
end

/-- All sets of functionals for rational damping are complete, without exception. -/
theorem Data.d3_bj : Data.d3File.allBlocks (fun _ m v b => m != "d3" || v != "bj" || b.rationalDampOk) = true := by
  decide +kernel

theorem Data.d3_zero_ok : Data.d3File.allBlocks (fun g m v b =>
    m != "d3" || v != "zero" || g ∉ zeroUsable || b.zeroDampOk) = true := by
  decide +kernel

section
variable {env : Env} {T : Tables} {ext : Ext} {numbers : Tensor ℕ} {positions charge : Tensor ℝ} {d : Disp}
  {p : Param} {oc : CalcOpts} {n : ℕ} {B : Shape} {R : RefCfg} {cn : Spec.CN} {eeq : Spec.EEQ}
  {cf : String → String} {s : PState} {r : Req} {a : Addr}

/-- Every set returned for a functional with `method="d3"`, `variant="bj"` (the default) works in every calculation with the terms of
`DispD3BJ` that works with any parameters. -/
theorem C31_d3_bj_partial (h : s.Reachable cf Data.paramFiles) (hm : r.method = "d3") (hv : r.variant = none ∨ r.variant = some "bj")
    {g : String} (hr : r.functional = some g) (hg : g ≠ "default")
    (ha : (s.getParams cf Data.paramFiles r).2 = .ok a) (hd : d.terms = DispClass.d3BJ.terms)
    (hc : d.Runs env T ext numbers positions charge p oc n B R cn eeq) :
    ∃ e, d.calculate env T ext numbers positions charge (Block.param ((s.getParams cf Data.paramFiles r).1.heap a)) oc =
      .ok e ∧ e.shape = numbers.shape := by
  obtain ⟨b', hb', hb⟩ := getParams_block (f := Data.d3File) h (by rw [hm]; rfl) ha
  rw [hr, hm] at hb'
  obtain ⟨w, hw, hcomp⟩ := locate_all Data.d3_bj hg hb'
  have hw' : w = "bj" := by
    rcases hv with hv | hv <;> rw [hv] at hw <;> cases hw <;> rfl
  subst hw'
  simp only [bne_self_eq_false, Bool.false_or] at hcomp
  rw [hb]
  obtain ⟨h1, h2, h3, h4⟩ := Block.rationalDampOk_usable (env := env) (Block.rationalDampOk_dropDoi r.keepDoi hcomp)
  have par : ∀ t ∈ d.terms, t.Usable env R (Block.param (dropDoi r.keepDoi b')) (oc.cutoff.getD {}) := by
    intro t ht
    have hp := hc.par t ht
    rw [hd] at ht
    simp only [DispClass.terms, List.mem_cons, List.not_mem_nil, or_false] at ht
    rcases ht with rfl | rfl
    · exact ⟨fun _ => h1, by simp, by simp, by simp, by simp, by simp, by simp, by simp, by simp⟩
    · exact ⟨by simp, by simp, fun _ => h2, fun _ => h3, hp.cut3, by simp, by simp, fun _ => h4, by simp⟩
  have hc' : d.Runs env T ext numbers positions charge (Block.param (dropDoi r.keepDoi b')) oc n B R cn eeq :=
    { hc with par := par }
  obtain ⟨e, he, -, hs⟩ := C06_any_disp hc'
  exact ⟨e, he, hs⟩

/-- The three sets for zero damping that are not excluded by `C31_d3_zero` work in every calculation with the terms of
`DispD3Zero` that works with any parameters. -/
theorem C31_d3_zero_partial (h : s.Reachable cf Data.paramFiles) (hm : r.method = "d3") (hv : r.variant = some "zero")
    {g : String} (hr : r.functional = some g) (hg : g ≠ "default") (hz : cf g ∈ zeroUsable)
    (ha : (s.getParams cf Data.paramFiles r).2 = .ok a) (hd : d.terms = DispClass.d3Zero.terms)
    (hc : d.Runs env T ext numbers positions charge p oc n B R cn eeq) :
    ∃ e, d.calculate env T ext numbers positions charge (Block.param ((s.getParams cf Data.paramFiles r).1.heap a)) oc =
      .ok e ∧ e.shape = numbers.shape := by
  obtain ⟨b', hb', hb⟩ := getParams_block (f := Data.d3File) h (by rw [hm]; rfl) ha
  rw [hr, hm, hv] at hb'
  obtain ⟨w, hw, hcomp⟩ := locate_all Data.d3_zero_ok hg hb'
  cases hw
  simp only [bne_self_eq_false, Bool.false_or, Bool.or_eq_true, decide_eq_true_eq, hz, not_true_eq_false, false_or] at hcomp
  rw [hb]
  obtain ⟨h1, h2, h3, h4⟩ := Block.zeroDampOk_usable (env := env) (Block.zeroDampOk_dropDoi r.keepDoi hcomp)
  have par : ∀ t ∈ d.terms, t.Usable env R (Block.param (dropDoi r.keepDoi b')) (oc.cutoff.getD {}) := by
    intro t ht
    have hp := hc.par t ht
    rw [hd] at ht
    simp only [DispClass.terms, List.mem_cons, List.not_mem_nil, or_false] at ht
    rcases ht with rfl | rfl
    · exact ⟨fun _ => h1, by simp, by simp, by simp, by simp, by simp, by simp, by simp, by simp⟩
    · exact ⟨by simp, by simp, fun _ => h2, fun _ => h3, hp.cut3, by simp, by simp, fun _ => h4, by simp⟩
  have hc' : d.Runs env T ext numbers positions charge (Block.param (dropDoi r.keepDoi b')) oc n B R cn eeq :=
    { hc with par := par }
  obtain ⟨e, he, -, hs⟩ := C06_any_disp hc'
  exact ⟨e, he, hs⟩

end

/-- No set of a functional in the D3 file has `alp`. -/
theorem Data.d3_alp : Data.d3File.allBlocks (fun _ _ _ b => (b.lookup "alp").isNone) = true := by
  decide +kernel

/-- The exponent of the D3 file is not used: its default blocks say `alp = 14`, but the sets of the functionals are
returned without them, so that every calculation is one with the default of the package, 16. -/
theorem C31_d3_alp {env : Env} {T : Tables} {ext : Ext} {numbers : Tensor ℕ} {positions charge : Tensor ℝ} {d : Disp}
    {oc : CalcOpts} {cf : String → String} {s : PState} {r : Req} {a : Addr} (h : s.Reachable cf Data.paramFiles)
    (hm : r.method = "d3") {g : String} (hr : r.functional = some g) (hg : g ≠ "default")
    (ha : (s.getParams cf Data.paramFiles r).2 = .ok a) :
    (∀ v b, Spec.defaultBlock Data.d3File "d3" v = some b → b.param.alp = .val 14) ∧
    let p := Block.param ((s.getParams cf Data.paramFiles r).1.heap a)
    d.calculate env T ext numbers positions charge p oc =
      d.calculate env T ext numbers positions charge { p with alp := .val 16 } oc := by
  constructor
  · intro v b hb
    have hall : (Data.d3File.defaults.all fun x => x.2.all fun y =>
        match y.2.lookup "alp" with | some (.num x) => x.m == 140 && x.e == 1 | _ => false) = true := by decide +kernel
    unfold Spec.defaultBlock at hb
    obtain ⟨e, he, hb⟩ := Option.bind_eq_some_iff.1 hb
    have h1 := List.all_eq_true.1 (List.all_eq_true.1 hall _ (mem_of_lookup he)) _ (mem_of_lookup hb)
    simp only at h1
    split at h1
    · next x hx =>
      simp only [Bool.and_eq_true, beq_iff_eq] at h1
      simp only [Block.param, Block.pval, hx, Dec.toReal, h1.1, h1.2]
      norm_num
    · cases h1
  · obtain ⟨b', hb', hb⟩ := getParams_block (f := Data.d3File) h (by rw [hm]; rfl) ha
    rw [hr] at hb'
    obtain ⟨w, -, hcomp⟩ := locate_all Data.d3_alp hg hb'
    have h0 : (Block.param (dropDoi r.keepDoi b')).alp = .absent :=
      Block.isNone_pval (by rw [lookup_dropDoi b' r.keepDoi (by decide)]; exact hcomp)
    rw [hb]
    refine Param.Same.calculate ?_ d oc
    constructor <;> simp [Param.kw, PVal.kw, PVal.tensor, PVal.num, h0, Defaults.alp]

/-- A set of the shipped D3 file. -/
theorem d3_found (g v : String) (hg : g ≠ "default") (hfind : (Spec.find id Data.d3File "d3" (some g) (some v)).isSome = true) :
    ∃ a, (PState.init.getParams id Data.paramFiles ⟨"d3", some g, some v, false⟩).2 = .ok a := by
  have h := C29_functional_partial (cf := id) (files := Data.paramFiles) (f := Data.d3File) .init
    (r := ⟨"d3", some g, some v, false⟩) (show "d3" ∈ dispersionMethods by decide) rfl
    (show (Spec.firstVariant Data.d3File "d3").isSome = true by decide +kernel) rfl hg rfl
  unfold Spec.Finds at h
  obtain ⟨b, hb⟩ := Option.isSome_iff_exists.1 hfind
  simp only [hb] at h
  obtain ⟨a, ha, -⟩ := h
  exact ⟨a, ha⟩

/-- PBE with `DispD3BJ` and the `wb97x` set with `DispD3Zero`, for water and hydrogen fluoride. -/
example : ∃ a e a' e', (PState.init.getParams id Data.paramFiles ⟨"d3", some "pbe", some "bj", false⟩).2 = .ok a ∧
    (Demo.dispOf .d3BJ).calculate Demo.env Demo.T Demo.ext Demo.numbers Demo.positions Demo.charge (Block.param
      ((PState.init.getParams id Data.paramFiles ⟨"d3", some "pbe", some "bj", false⟩).1.heap a)) {} = .ok e ∧
    (PState.init.getParams id Data.paramFiles ⟨"d3", some "wb97x", some "zero", false⟩).2 = .ok a' ∧
    (Demo.dispOf .d3Zero).calculate Demo.env Demo.T Demo.ext Demo.numbers Demo.positions Demo.charge (Block.param
      ((PState.init.getParams id Data.paramFiles ⟨"d3", some "wb97x", some "zero", false⟩).1.heap a')) {} = .ok e' := by
  obtain ⟨a, ha⟩ := d3_found "pbe" "bj" (by decide) (by decide +kernel)
  obtain ⟨a', ha'⟩ := d3_found "wb97x" "zero" (by decide) (by decide +kernel)
  obtain ⟨e, he, -⟩ := C31_d3_bj_partial .init rfl (Or.inr rfl) rfl (by decide) ha rfl
    (Demo.dispOf_runs .d3BJ Demo.validArgs)
  obtain ⟨e', he', -⟩ := C31_d3_zero_partial .init rfl rfl rfl (by decide) (by decide) ha' rfl
    (Demo.dispOf_runs .d3Zero Demo.validArgs)
  exact ⟨a, e, a', e', ha, he, ha', he'⟩

/-- PBE with `DispD3BJ`: the same with `alp = 16`. -/
example : ∃ a, (PState.init.getParams id Data.paramFiles ⟨"d3", some "pbe", some "bj", false⟩).2 = .ok a ∧
    let p := Block.param ((PState.init.getParams id Data.paramFiles ⟨"d3", some "pbe", some "bj", false⟩).1.heap a)
    (Demo.dispOf .d3BJ).calculate Demo.env Demo.T Demo.ext Demo.numbers Demo.positions Demo.charge p {} =
      (Demo.dispOf .d3BJ).calculate Demo.env Demo.T Demo.ext Demo.numbers Demo.positions Demo.charge
        { p with alp := .val 16 } {} := by
  obtain ⟨a, ha⟩ := d3_found "pbe" "bj" (by decide) (by decide +kernel)
  exact ⟨a, ha, (C31_d3_alp .init rfl rfl (by decide) ha).2⟩

end TadDftd4
