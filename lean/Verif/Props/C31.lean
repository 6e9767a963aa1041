import Verif.Props.C29
import Verif.Lemmas.Errors
import Verif.Props.C32

/-!
# C31: parameter sets returned by `get_params` can be used for a calculation

True for the D4 sets of functionals. The default parameter blocks contain keys the damping functions
do not accept, and the D3 sets for zero damping lack `rs8`.
-/

set_option linter.unusedSimpArgs false

open scoped Classical

namespace TadDftd4

open Tensor

/-- A key is absent or has a number as value. -/
def Block.numOrAbsent (b : Block) (k : String) : Bool :=
  match b.lookup k with
  | some (.str _) => false
  | _ => true

/-- A key has a number as value. -/
def Block.hasNum (b : Block) (k : String) : Bool :=
  match b.lookup k with
  | some (.num _) => true
  | _ => false

/-- Only known keys, and the required ones present. -/
def Block.complete (b : Block) : Bool :=
  (b.all fun x => x.1 ∈ "doi" :: paramKeys) && b.hasNum "a1" && b.hasNum "a2" && b.hasNum "s8" &&
    b.numOrAbsent "s6" && b.numOrAbsent "s10" && b.numOrAbsent "s9" && b.numOrAbsent "alp"

/-- Number at a key, or a default. -/
noncomputable def Spec.number (b : Block) (k : String) (d : ℝ) : ℝ :=
  match b.lookup k with
  | some (.num x) => x.m / 10 ^ x.e
  | _ => d

/-- The parameters listed in a block, with the documented defaults. -/
noncomputable def Spec.blockPar (b : Block) : Spec.D4Par where
  s6 := Spec.number b "s6" 1
  s8 := Spec.number b "s8" 1
  s10 := Spec.number b "s10" 0
  s9 := Spec.number b "s9" 1
  a1 := Spec.number b "a1" 0
  a2 := Spec.number b "a2" 0
  alp := Spec.number b "alp" 16

theorem Block.complete_reads {b : Block} (h : b.complete = true) :
    b.param.Reads (Spec.blockPar b) := by
  simp only [Block.complete, Bool.and_eq_true] at h
  obtain ⟨⟨⟨⟨⟨⟨⟨hk, h1⟩, h2⟩, h3⟩, h4⟩, h5⟩, h6⟩, h7⟩ := h
  have num : ∀ {k : String} (d : ℝ), b.hasNum k = true → b.pval k = .val (Spec.number b k d) := by
    intro k d h
    unfold Block.hasNum at h
    unfold Block.pval Spec.number
    split at h
    · next x hx => rw [hx]; rfl
    · exact absurd h (by simp)
  have opt : ∀ {k : String} (d : ℝ), b.numOrAbsent k = true →
      b.pval k = .val (Spec.number b k d) ∨ b.pval k = .absent ∧ Spec.number b k d = d := by
    intro k d h
    unfold Block.numOrAbsent at h
    unfold Block.pval Spec.number
    cases hx : b.lookup k with
    | none => exact Or.inr ⟨rfl, rfl⟩
    | some x =>
      cases x with
      | num x => exact Or.inl rfl
      | str x => rw [hx] at h; exact absurd h (by simp)
  exact {
    extra := by
      simp only [Block.param, List.filter_eq_nil_iff]
      intro k hk'
      obtain ⟨x, hx, rfl⟩ := List.mem_map.1 hk'
      have := List.all_eq_true.1 hk x hx
      simpa [or_iff_not_imp_left] using this
    a1 := num _ h1
    a2 := num _ h2
    s8 := num _ h3
    s6 := opt _ h4
    s10 := opt _ h5
    s9 := opt _ h6
    alp := opt _ h7 }

theorem Block.complete_dropDoi {b : Block} (keep : Bool) (h : b.complete = true) :
    (dropDoi keep b).complete = true := by
  have hl : ∀ k ≠ "doi", (dropDoi keep b).lookup k = b.lookup k := by
    intro k hk
    rw [dropDoi_same keep b k, if_neg (fun h => hk h.1)]
  simp only [Block.complete, Block.hasNum, Block.numOrAbsent, Bool.and_eq_true,
    hl "a1" (by decide), hl "a2" (by decide), hl "s8" (by decide), hl "s6" (by decide),
    hl "s10" (by decide), hl "s9" (by decide), hl "alp" (by decide)] at h ⊢
  obtain ⟨⟨⟨⟨⟨⟨⟨hk, h1⟩, h2⟩, h3⟩, h4⟩, h5⟩, h6⟩, h7⟩ := h
  refine ⟨⟨⟨⟨⟨⟨⟨?_, h1⟩, h2⟩, h3⟩, h4⟩, h5⟩, h6⟩, h7⟩
  refine List.all_eq_true.2 fun x hx => List.all_eq_true.1 hk x ?_
  unfold dropDoi at hx
  split at hx
  · exact hx
  · exact List.mem_of_mem_filter hx

/-! ## Lookup in files all of whose blocks pass a check -/

/-- All blocks of functionals, with method and variant. -/
def ParamFile.allBlocks (f : ParamFile Block) (c : String → String → String → Block → Bool) : Bool :=
  f.functionals.all fun x => x.2.all fun y => y.2.all fun z => c x.1 y.1 z.1 z.2

section
variable {cf : String → String} {files : String → Option (ParamFile Block)} {s : PState}
  {f : ParamFile Block} {r : Req} {a : Addr}

/-- A returned set is a block of the file, without its doi if it is not kept. -/
theorem getParams_block (h : s.Reachable cf files) (hf : files r.method = some f)
    (ha : (s.getParams cf files r).2 = .ok a) :
    ∃ b, locate cf f r.method r.functional r.variant = .ok b ∧
      (s.getParams cf files r).1.heap a = dropDoi r.keepDoi b := by
  have h1 := C30_independent h r
  unfold Spec.params at h1
  by_cases hm : r.method ∈ dispersionMethods
  · rw [if_neg (not_not.2 hm)] at h1
    simp only [hf] at h1
    cases hl : locate cf f r.method r.functional r.variant with
    | error e =>
      rw [hl] at h1
      simp only [Except.map] at h1
      rw [h1] at ha; cases ha
    | ok b =>
      rw [hl] at h1
      obtain ⟨a', h2, h3, -⟩ := h1
      rw [h2] at ha
      cases ha
      exact ⟨b, rfl, h3⟩
  · rw [if_pos hm] at h1
    rw [h1] at ha; cases ha

theorem locate_all {c : String → String → String → Block → Bool} (hc : f.allBlocks c = true)
    {g : String} (hg : g ≠ "default") {m : String} {v : Option String} {b : Block}
    (hb : locate cf f m (some g) v = .ok b) :
    ∃ w, chooseVariant f m v = .ok w ∧ c (cf g) m w b = true := by
  unfold locate dispSection functionalSection at hb
  simp only [if_neg hg] at hb
  split at hb
  · simp [bind, Except.bind] at hb
  · simp only [bind_eq_ok, getItem_eq_ok] at hb
    obtain ⟨d, ⟨d', hd', hd⟩, w, hw, e, he, hb⟩ := hb
    split at hd
    · cases hd
    · cases hd
      refine ⟨w, hw, ?_⟩
      have h1 := List.all_eq_true.1 hc _ (mem_of_lookup hd')
      have h2 := List.all_eq_true.1 h1 _ (mem_of_lookup he)
      exact List.all_eq_true.1 h2 _ (mem_of_lookup hb)

end

theorem Data.d4_complete : Data.d4File.allBlocks (fun _ _ _ b => b.complete) = true := by
  decide +kernel

section
variable {env : Env} {T : Tables} {ext : Ext} {numbers : Tensor ℕ} {positions charge : Tensor ℝ}
  {p : Param} {o : DftOpts} {n : ℕ} {B : Shape} {R : RefCfg} {cn : Spec.CN} {eeq : Spec.EEQ}
  {P : Spec.D4Par} {cf : String → String} {s : PState} {r : Req} {a : Addr}

/-- Every set returned for a functional with `method="d4"` works in every call that works with any
parameters, and gives the D4 energy with the listed numbers. -/
theorem C31_d4_partial (h : s.Reachable cf Data.paramFiles) (hm : r.method = "d4") {g : String}
    (hr : r.functional = some g) (hg : g ≠ "default")
    (ha : (s.getParams cf Data.paramFiles r).2 = .ok a)
    (hc : Call env T ext numbers positions charge p o n B R cn eeq P) :
    let b := (s.getParams cf Data.paramFiles r).1.heap a
    ∃ e, dftd4 env T ext numbers positions charge b.param o = .ok e ∧ e.Ok (n :: B) ∧
      ∀ x, InB B x → ∀ i : Fin n, e.get (i.1 :: x) =
        Spec.energy (d4Computed env T R (Spec.blockPar b) (o.opts.cutoff.getD {}))
          (system T cn eeq numbers positions charge o.opts n x) i := by
  intro b
  obtain ⟨b', hb', hb⟩ := getParams_block (f := Data.d4File) h (by rw [hm]; rfl) ha
  rw [hr] at hb'
  obtain ⟨w, -, hcomp⟩ := locate_all Data.d4_complete hg hb'
  have hcb : b.complete = true := by
    show Block.complete ((s.getParams cf Data.paramFiles r).1.heap a) = true
    rw [hb]; exact Block.complete_dropDoi _ hcomp
  have hc' : Call env T ext numbers positions charge b.param o n B R cn eeq (Spec.blockPar b) :=
    { hc with par := Block.complete_reads hcb }
  exact hc'.eval

/-! ## Sets that never work -/

/-- An exception of the damping function of order 6 or 8 is raised by the two-body energy. -/
theorem dispersion2_noErr {c6 r4r2 : Tensor ℝ} {rvdw : Option (Tensor ℝ)} {d : Damping}
    {cutoff : Option ℝ} {asMatrix : Bool}
    (h : (dispersion2 env numbers positions p c6 r4r2 rvdw d cutoff asMatrix).err = none) :
    ∃ dist rad, (d.callParam env dist rad 6 p).err = none ∧ (d.callParam env dist rad 8 p).err = none := by
  refine ⟨pairDistances env numbers positions, radii2 d r4r2 rvdw, ?_⟩
  unfold dispersion2 at h
  simp only [Tensor.after_err, orErr_eq_none] at h
  obtain ⟨-, -, -, h6, h8, -⟩ := h
  simp only [tDamp, where_err, orErr_eq_none] at h6 h8
  exact ⟨h6.1.2.1, h8.1.2.1⟩

/-- With an unknown key no two-body term works. -/
theorem C31_extra_never (hx : p.extra ≠ []) {d : Disp} {t : Term} (ht : t ∈ d.terms)
    (hcls : t.cls = .twoBody) {oc : CalcOpts} (e : Tensor ℝ) :
    d.calculate env T ext numbers positions charge p oc ≠ .ok e := by
  intro h
  obtain ⟨model, c, q, -, -, -, -, -, hall⟩ := calculate_ok h
  have := hall t ht
  unfold Term.calculate at this
  simp only [hcls] at this
  obtain ⟨dist, rad, h6, -⟩ := dispersion2_noErr this
  simp [Damping.callParam, hx] at h6

/-- Without `rs8` but with `s8` zero damping never works. -/
theorem C31_zero_never (hs : p.s8 ≠ .absent) (hs' : p.s8 ≠ .none) (hrs : p.rs8 = .absent) {d : Disp}
    {t : Term} (ht : t ∈ d.terms) (hcls : t.cls = .twoBody) (hd : t.damping = .zero) {oc : CalcOpts}
    (e : Tensor ℝ) : d.calculate env T ext numbers positions charge p oc ≠ .ok e := by
  intro h
  obtain ⟨model, c, q, -, -, -, -, -, hall⟩ := calculate_ok h
  have := hall t ht
  unfold Term.calculate at this
  simp only [hcls, hd] at this
  obtain ⟨dist, rad, -, h8⟩ := dispersion2_noErr this
  cases h8' : p.s8 with
  | absent => exact hs h8'
  | none => exact hs' h8'
  | val x =>
    by_cases hx : p.extra = []
    · simp [Damping.callParam, hx, Damping.call, Param.kw, PVal.kw, h8', hrs, Damping.checkedF,
        Damping.required] at h8
    · simp [Damping.callParam, hx] at h8

end

/-- Functionals whose D3 set for zero damping has `rs8`, or has no `s8`. -/
def zeroUsable : List String := ["slaterdirac", "wb97x", "cf22d"]

theorem Data.d3_zero : Data.d3File.allBlocks (fun g m v b =>
    m != "d3" || v != "zero" || g ∈ zeroUsable || (b.hasNum "s8" && (b.lookup "rs8").isNone)) =
    true := by
  decide +kernel

section
variable {env : Env} {T : Tables} {ext : Ext} {numbers : Tensor ℕ} {positions charge : Tensor ℝ}
  {cf : String → String} {s : PState} {r : Req} {a : Addr}

/-- All D3 sets for zero damping, except three, can never be used with zero damping. -/
theorem C31_d3_zero (h : s.Reachable cf Data.paramFiles) (hm : r.method = "d3")
    (hv : r.variant = some "zero") {g : String} (hr : r.functional = some g) (hg : g ≠ "default")
    (hz : cf g ∉ zeroUsable) (ha : (s.getParams cf Data.paramFiles r).2 = .ok a) {d : Disp} {t : Term}
    (ht : t ∈ d.terms) (hcls : t.cls = .twoBody) (hd : t.damping = .zero) {oc : CalcOpts}
    (e : Tensor ℝ) :
    d.calculate env T ext numbers positions charge
      (Block.param ((s.getParams cf Data.paramFiles r).1.heap a)) oc ≠ .ok e := by
  obtain ⟨b', hb', hb⟩ := getParams_block (f := Data.d3File) h (by rw [hm]; rfl) ha
  rw [hr, hv, hm] at hb'
  obtain ⟨w, hw, hcomp⟩ := locate_all Data.d3_zero hg hb'
  cases hw
  simp only [bne_self_eq_false, Bool.false_or, Bool.or_eq_true, decide_eq_true_eq, hz, false_or,
    Bool.and_eq_true, Option.isNone_iff_eq_none] at hcomp
  have hl : ∀ k ≠ "doi", (dropDoi r.keepDoi b').lookup k = b'.lookup k := by
    intro k hk
    rw [dropDoi_same r.keepDoi b' k, if_neg (fun h => hk h.1)]
  rw [hb]
  have hs8 : ∃ x, (Block.param (dropDoi r.keepDoi b')).s8 = .val x := by
    simp only [Block.param, Block.pval, hl "s8" (by decide)]
    have := hcomp.1
    unfold Block.hasNum at this
    split at this
    · next x hx => rw [hx]; exact ⟨_, rfl⟩
    · cases this
  obtain ⟨x, hx⟩ := hs8
  refine C31_zero_never (by rw [hx]; simp) (by rw [hx]; simp) ?_ ht hcls hd e
  simp [Block.param, Block.pval, hl "rs8" (by decide), hcomp.2]

end

/-- Full statement for D4: every returned set works in every call that works at all. -/
def D4SetsUsable (cf : String → String) : Prop :=
  ∀ (s : PState) (r : Req) (a : Addr), s.Reachable cf Data.paramFiles → r.method = "d4" →
    (s.getParams cf Data.paramFiles r).2 = .ok a →
    ∀ env T ext numbers positions charge p o n B R cn eeq P,
      Call env T ext numbers positions charge p o n B R cn eeq P →
      ∃ e, dftd4 env T ext numbers positions charge
        (Block.param ((s.getParams cf Data.paramFiles r).1.heap a)) o = .ok e

theorem dftd4_extra_never {env : Env} {T : Tables} {ext : Ext} {numbers : Tensor ℕ}
    {positions charge : Tensor ℝ} {p : Param} {o : DftOpts} (hx : p.extra ≠ []) (e : Tensor ℝ) :
    dftd4 env T ext numbers positions charge p o ≠ .ok e := by
  intro h
  obtain ⟨model, c, q, hall⟩ := dftd4_ok h
  have := hall _ (Or.inl rfl)
  unfold Term.calculate at this
  dsimp only at this
  obtain ⟨dist, rad, h6, -⟩ := dispersion2_noErr this
  simp [Damping.callParam, hx] at h6

/-- The default parameters never work. -/
theorem C31_default_never {cf : String → String} {s : PState} {r : Req} {a : Addr}
    (h : s.Reachable cf Data.paramFiles) (hm : r.method = "d4")
    (hr : r.functional = none ∨ r.functional = some "default")
    (ha : (s.getParams cf Data.paramFiles r).2 = .ok a) {env : Env} {T : Tables} {ext : Ext}
    {numbers : Tensor ℕ} {positions charge : Tensor ℝ} {o : DftOpts} (e : Tensor ℝ) :
    dftd4 env T ext numbers positions charge
      (Block.param ((s.getParams cf Data.paramFiles r).1.heap a)) o ≠ .ok e := by
  obtain ⟨b', hb', hb⟩ := getParams_block (f := Data.d4File) h (by rw [hm]; rfl) ha
  refine dftd4_extra_never ?_ e
  have hsec : dispSection cf Data.d4File r.method r.functional r.variant =
      defaultSection Data.d4File r.method r.variant := by
    rcases hr with hr | hr <;> simp [dispSection, hr]
  have hdef : (Data.d4File.defaults.all fun x => x.2.all fun y =>
      y.2.any fun z => z.1 == "damping") = true := by decide +kernel
  have hany : (b'.any fun z => z.1 == "damping") = true := by
    unfold locate at hb'
    simp only [hsec, bind_eq_ok, getItem_eq_ok] at hb'
    obtain ⟨d, hd, w, hw, v, hv, hb'⟩ := hb'
    have : d = Data.d4File.defaults := by
      unfold defaultSection at hd
      simp only [bind_eq_ok] at hd
      obtain ⟨vs, -, hd⟩ := hd
      split at hd
      · cases hd
      · split at hd
        · cases hd; rfl
        · cases hd
    subst this
    exact List.all_eq_true.1 (List.all_eq_true.1 hdef _ (mem_of_lookup hv)) _ (mem_of_lookup hb')
  rw [hb]
  obtain ⟨z, hz, hzd⟩ := List.any_eq_true.1 hany
  have hzd' : z.1 = "damping" := by simpa using hzd
  have hmem : z ∈ dropDoi r.keepDoi b' := by
    unfold dropDoi
    split
    · exact hz
    · exact List.mem_filter.2 ⟨hz, by simp [hzd']⟩
  have : "damping" ∈ (Block.param (dropDoi r.keepDoi b')).extra := by
    simp only [Block.param]
    refine List.mem_filter.2 ⟨List.mem_map.2 ⟨z, hmem, hzd'⟩, by decide⟩
  intro h0
  rw [h0] at this
  cases this

/-- The default parameters of the default variant. -/
def defaultReq : Req := ⟨"d4", none, some "bj-eeq-atm", false⟩

theorem defaultReq_ok : ∃ a, (PState.init.getParams id Data.paramFiles defaultReq).2 = .ok a := by
  have h := C29_default_partial (cf := id) (files := Data.paramFiles) (f := Data.d4File) .init
    (r := defaultReq) (by decide) rfl (Or.inl rfl) (v := "bj-eeq-atm") (vs := ["bj-eeq-atm"]) rfl rfl
    (by simp)
  unfold Spec.Finds at h
  have hfind : (Spec.find id Data.d4File "d4" none (some "bj-eeq-atm")).isSome = true := by
    decide +kernel
  obtain ⟨b, hb⟩ := Option.isSome_iff_exists.1 hfind
  simp only [defaultReq, hb] at h
  obtain ⟨a, ha, -⟩ := h
  exact ⟨a, ha⟩

theorem C31_default_false : ¬ D4SetsUsable id := by
  intro H
  obtain ⟨a, ha⟩ := defaultReq_ok
  obtain ⟨e, he⟩ := H _ defaultReq a .init rfl ha _ _ _ _ _ _ _ _ _ _ _ _ _ _ Demo.call
  exact C31_default_never .init rfl (Or.inl rfl) ha e he

/-- PBE0, as shipped, with water and hydrogen fluoride. -/
example : ∃ a e, (PState.init.getParams id Data.paramFiles ⟨"d4", some "pbe0", none, false⟩).2 = .ok a ∧
    dftd4 Demo.env Demo.T Demo.ext Demo.numbers Demo.positions Demo.charge (Block.param
      ((PState.init.getParams id Data.paramFiles ⟨"d4", some "pbe0", none, false⟩).1.heap a)) {} =
      .ok e := by
  have h := C29_functional_partial (cf := id) (files := Data.paramFiles) (f := Data.d4File) .init
    (r := ⟨"d4", some "pbe0", none, false⟩) (by decide) rfl (by decide +kernel) rfl (by decide) rfl
  unfold Spec.Finds at h
  have hfind : (Spec.find id Data.d4File "d4" (some "pbe0") none).isSome = true := by
    decide +kernel
  obtain ⟨b, hb⟩ := Option.isSome_iff_exists.1 hfind
  simp only [hb] at h
  obtain ⟨a, ha, -⟩ := h
  obtain ⟨e, he, -⟩ := C31_d4_partial .init rfl rfl (by decide) ha Demo.call
  exact ⟨a, e, ha, he⟩

/-- A set with a key that the damping functions do not know. -/
example (e : Tensor ℝ) : Demo.dispD4.calculate Demo.env Demo.T Demo.ext Demo.numbers Demo.positions
    Demo.charge { Demo.param with extra := ["b1"] } {} ≠ .ok e :=
  C31_extra_never (by simp) (t := ⟨.twoBody, .rational, true⟩)
    (by simp [Demo.dispD4, DispClass.terms]) rfl e

/-- `DispD3Zero` with `s8` but no `rs8`. -/
example (e : Tensor ℝ) : Disp.calculate Demo.env Demo.T Demo.ext
    { Demo.dispD4 with terms := DispClass.d3Zero.terms } Demo.numbers Demo.positions
    Demo.charge { s8 := .val 1, rs6 := .val 1.2, alp := .val 14 } {} ≠ .ok e :=
  C31_zero_never (by simp) (by simp) rfl (t := ⟨.twoBody, .zero, false⟩)
    (by simp [DispClass.terms]) rfl rfl e

/-- The set of PBE for zero damping. -/
example : ∃ a, (PState.init.getParams id Data.paramFiles ⟨"d3", some "pbe", some "zero", false⟩).2 =
    .ok a ∧ ∀ e, Disp.calculate Demo.env Demo.T Demo.ext
      { Demo.dispD4 with terms := DispClass.d3Zero.terms } Demo.numbers Demo.positions Demo.charge
      (Block.param ((PState.init.getParams id Data.paramFiles
        ⟨"d3", some "pbe", some "zero", false⟩).1.heap a)) {} ≠ .ok e := by
  have h : ∃ a, (PState.init.getParams id Data.paramFiles
      ⟨"d3", some "pbe", some "zero", false⟩).2 = .ok a := ⟨.fresh 1, by decide +kernel⟩
  obtain ⟨a, ha⟩ := h
  exact ⟨a, ha, fun e => C31_d3_zero .init rfl rfl rfl (by decide) (by decide) ha
    (t := ⟨.twoBody, .zero, false⟩) (by simp [DispClass.terms]) rfl rfl e⟩

/-- `C32_term_error`: without `a1` the two-body term cannot be evaluated. -/
example (e : Tensor ℝ) : Demo.dispD4.calculate Demo.env Demo.T Demo.ext Demo.numbers Demo.positions
    Demo.charge { a2 := .val 5, s8 := .val 1 } {} ≠ .ok e := by
  obtain ⟨m, hm⟩ := Demo.ready {} (by simp) (by simp)
  refine C32_term_error hm (t := ⟨.twoBody, .rational, true⟩)
    (by simp [Demo.dispD4, DispClass.terms]) (fun h => ?_) e
  unfold termEnergy Term.calculate at h
  obtain ⟨dist, rad, h6, -⟩ := dispersion2_noErr h
  simp [Damping.callParam, Damping.call, Param.kw, PVal.kw, Damping.checkedF, Damping.required] at h6

/-- The default parameters of D4 with water and hydrogen fluoride. -/
example : ∃ a, (PState.init.getParams id Data.paramFiles defaultReq).2 = .ok a ∧
    ∀ e, dftd4 Demo.env Demo.T Demo.ext Demo.numbers Demo.positions Demo.charge
      (Block.param ((PState.init.getParams id Data.paramFiles defaultReq).1.heap a)) {} ≠ .ok e := by
  obtain ⟨a, ha⟩ := defaultReq_ok
  exact ⟨a, ha, C31_default_never .init rfl (Or.inl rfl) ha⟩

end TadDftd4
